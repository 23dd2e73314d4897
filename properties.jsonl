{"id": "C01", "title": "Pushing behaves like string concatenation", "statement": "Starting from any constructor (new, new_reverse, From<char>, From<&str>, From<String>), any sequence of try_push, try_push_str and try_push_front calls in an `alloc` build succeeds and leaves a NominalString whose text is exactly the text obtained by appending/prepending the same pieces to an ordinary string.", "quantifier": "every constructor, every finite sequence of push operations, every char and every string argument of any length", "why_tests_cant": "The inline buffer is manipulated at byte level with offsets that depend on direction, multi-byte chars and remaining room; tests sample a few ASCII pushes.", "anchors": ["src/nominalstring.rs: NominalString::{try_push,try_push_str,try_push_front}", "src/nominalstring.rs: InlineString::{push,push_str,push_front}", "src/nominalstring.rs: MaybeInline::{push,push_str,push_front}"]}
{"id": "C02", "title": "new() and new_reverse() are observationally identical", "statement": "Performing the same series of push operations on a string from new() and on one from new_reverse() gives the same Ok/Err results, the same text and the same is_inline() at every point, in alloc and no-alloc builds.", "quantifier": "every finite sequence of push operations, both feature configurations", "why_tests_cant": "The documentation promises identical observable behaviour for *every* series of operations; there are infinitely many.", "anchors": ["src/nominalstring.rs: NominalString::new_reverse", "src/nominalstring.rs: InlineString::is_reverse"]}
{"id": "C03", "title": "No uninitialised or out-of-buffer byte is ever read and the text is always valid UTF-8", "statement": "After any sequence of operations the bytes exposed by a NominalString lie inside its 62-byte buffer, have all been written, and are the UTF-8 encoding of a sequence of chars; no operation panics on slice bounds or u8 overflow.", "quantifier": "every constructor, every finite sequence of operations (including failed pushes and in-place edits), both feature configurations", "why_tests_cant": "Reading MaybeUninit memory or building invalid UTF-8 is undefined behaviour that ordinary tests do not detect.", "anchors": ["src/nominalstring.rs: InlineString::{as_bytes,as_bytes_mut,as_str,as_mut_str,data_offset,set_length}"]}
{"id": "C04", "title": "Heap is used exactly when the text exceeds 62 bytes, and never left afterwards", "statement": "A string built from new()/new_reverse()/From<char>/From<&str> by pushes is_inline() if and only if its UTF-8 length is at most INLINE_CAPACITY = 62; a string from From<String> is never inline, whatever its length, and no push makes a heap string inline again.", "quantifier": "every constructor and every sequence of pushes in an alloc build", "why_tests_cant": "The boundary interacts with char width (1-4 bytes), push kind and direction.", "anchors": ["src/nominalstring.rs: NominalString::{INLINE_CAPACITY,is_inline}", "src/nominalstring.rs: MaybeInline::{push,push_str,push_front}"]}
{"id": "C05", "title": "Without `alloc`, a push fails exactly when it does not fit, and a failed push changes nothing", "statement": "In a no-alloc build each push returns OutOfMemoryError if and only if the resulting text would exceed 62 bytes; on error the text is unchanged and later pushes behave as if the failed push had not been made.", "quantifier": "every interleaving of successful and failing pushes", "why_tests_cant": "Error paths inside histories: all-or-nothing must hold after every prefix of operations.", "anchors": ["src/nominalstring.rs: MaybeInline::{push,push_str,push_front}", "src/nominalstring.rs: OutOfMemoryError"]}
{"id": "C06", "title": "Conversions preserve the text", "statement": "From<char>, From<&str>, From<&String>, From<String>, String::from(NominalString) and try_into_string preserve the text exactly (Clone: C70); From<&str> is inline iff at most 62 bytes (a no-alloc build panics otherwise); try_into_string returns Ok iff the string is on the heap and otherwise gives the same string back.", "quantifier": "every text of every length, both feature configurations", "why_tests_cant": "Length-dependent branches (<=62, <=255, >255) over unbounded inputs.", "anchors": ["src/nominalstring.rs: From<&str>", "src/nominalstring.rs: From<char>", "src/nominalstring.rs: From<String>", "src/nominalstring.rs: NominalString::try_into_string", "src/nominalstring.rs: From<NominalString> for String"]}
{"id": "C07", "title": "Equality and ordering look only at the text", "statement": "Two NominalStrings (any mixture of inline forward, inline reverse and heap) are equal iff their texts are equal; cmp is a total order consistent with ==, and equals the lexicographic order on Unicode code points; comparisons against str and String agree.", "quantifier": "every pair/triple of strings reachable through any operations", "why_tests_cant": "Representation-independence is a relation over all pairs of histories.", "anchors": ["src/nominalstring.rs: PartialEq", "src/nominalstring.rs: Ord", "src/nominalstring.rs: PartialOrd<str>", "src/nominalstring.rs: PartialEq<String>"]}
{"id": "C08", "title": "In-place edits through DerefMut touch only the text", "statement": "Editing the text in place through &mut str (any edit producing valid UTF-8 of the same byte length) yields exactly the edited text and subsequent pushes continue from it, for forward, reverse and heap strings; is_inline does not change. Seen as an edit of the bytes: the string afterwards reads as a text exactly if the new bytes are the UTF-8 encoding of that text.", "quantifier": "every string, every length-preserving edit, every later push sequence", "why_tests_cant": "The mutable slice's offset depends on direction and length.", "anchors": ["src/nominalstring.rs: DerefMut", "src/nominalstring.rs: InlineString::{as_bytes_mut,as_mut_str}"]}
{"id": "C09", "title": "Zero-digit collections produce the base-N numeral", "statement": "For a digit collection that has a zero digit and at least two digits, formatting n gives exactly the standard base-N representation of n: no leading zero digit (except for 0 itself, which is the single zero digit), and reading the digits positionally gives n.", "quantifier": "every collection (any N >= 2, any characters), every nominal of every supported integer type", "why_tests_cant": "Unbounded in the value, the base and the digit set.", "anchors": ["src/digital.rs: NominalSystem::try_format_nominal for D: DigitCollection", "src/digital.rs: DigitSet<N, true>"]}
{"id": "C10", "title": "Zero-less collections count like spreadsheet columns", "statement": "For a zero-based collection without a zero digit, 0 is the first symbol alone and the text for n+1 is the odometer successor of the text for n (advance the last symbol; when it is the last symbol of the alphabet wrap it to the first and carry; when every symbol wraps, prepend the first symbol). Equivalently, n is the (n+1)-th non-empty word in shortlex order.", "quantifier": "every collection with N >= 1 digits, every nominal of every supported integer type", "why_tests_cant": "The carry behaviour at every power of N.", "anchors": ["src/digital.rs: try_format_nominal", "src/digital.rs: DigitSet<N, false>", "src/digital.rs: LetterUpper"]}
{"id": "C11", "title": "one_based() shifts counting to start at 1", "statement": "For a collection without a zero digit (and with no more digits than the integer type can count), one_based() returns Error::NoZeroSymbol for 0 and for n >= 1 returns exactly the text the zero-based collection gives for n-1.", "quantifier": "every zero-less collection, every nominal of every supported integer type", "why_tests_cant": "The shift must be right for every value including carries.", "anchors": ["src/digital.rs: OneBased", "src/digital.rs: DigitCollection::one_based"]}
{"id": "C12", "title": "one_based() has no effect on collections with a zero digit", "statement": "If a non-fixed collection has a zero digit, collection.one_based() formats every nominal exactly like the collection itself.", "quantifier": "every such collection, every nominal, every integer type, both feature configurations", "why_tests_cant": "A for-all equivalence between two programs.", "anchors": ["src/digital.rs: DigitCollection::one_based", "src/digital.rs: OneBased"]}
{"id": "C13", "title": "Distinct nominals get distinct identifiers (digit collections)", "statement": "If the digits of a collection are pairwise different, two nominals that format successfully to the same text are equal (zero-digit collections with N >= 2; zero-less collections, zero- or one-based, with N >= 1), also if they are of different integer types; for one-based collections only if N exceeds the number of values of both types or of neither.", "quantifier": "every pair of nominals, every such collection", "why_tests_cant": "Uniqueness over all pairs.", "anchors": ["src/digital.rs: try_format_nominal"]}
{"id": "C14", "title": "Every identifier is reachable (digit collections)", "statement": "Every non-empty word over the alphabet of a zero-less collection is the text of some natural number, and every word without leading zero digit over a zero-digit collection is too, namely of the number it denotes; any integer type wide enough to hold that number (and, if the collection counts from one, with more values than there are symbols) produces that word.", "quantifier": "every word of every length over every alphabet", "why_tests_cant": "Surjectivity over infinitely many words.", "anchors": ["src/digital.rs: try_format_nominal"]}
{"id": "C15", "title": "Fixed collections fall back as a whole", "statement": "CjkHeavenlyStem and CjkEarthlyBranch return NoZeroSymbol for 0, the single n-th symbol for 1 <= n <= len, and for every larger n exactly the text CjkDecimal gives for n. In general a fixed collection yields the fallback's result for out-of-range nominals, or OutOfBounds(n) when the fallback is empty.", "quantifier": "every nominal of every integer type; every fixed collection", "why_tests_cant": "Boundary and fallback behaviour for all values.", "anchors": ["src/digital.rs: CjkHeavenlyStem", "src/digital.rs: CjkEarthlyBranch", "src/digital.rs: try_format_nominal"]}
{"id": "C16", "title": "Digit formatting never indexes out of range, underflows or divides by zero", "statement": "For any non-fixed digit collection with at least one digit whose digit(i) is defined for i < len(), formatting never panics: digit() is only called with an index below len(), no subtraction underflows and no lossy integer cast happens.", "quantifier": "every collection with len >= 1, every nominal, every integer type, every pointer width", "why_tests_cant": "Panic freedom over all inputs and type/pointer-width combinations.", "anchors": ["src/digital.rs: try_format_nominal", "src/lib.rs: UnsignedInteger::as_usize"]}
{"id": "C17", "title": "Digit formatting terminates, except for a one-symbol zero-digit collection", "statement": "Formatting with a collection that is not fixed fails to terminate exactly when its only digit is a zero digit, the nominal is not 0 and the build has alloc; in a no-alloc build that collection returns OutOfMemory.", "quantifier": "every collection, every nominal", "why_tests_cant": "Termination and non-termination cannot be observed by finite testing.", "anchors": ["src/digital.rs: try_format_nominal"]}
{"id": "C18", "title": "Hexadecimal, Chain and Restrict", "statement": "Chain uses the first collection's digits and then the second's; Restrict keeps the first `count` digits; consequently HexUpper/HexLower format every nominal as the usual base-16 numeral with digits 0-9A-F / 0-9a-f and HexLower is the lower-cased HexUpper.", "quantifier": "every nominal of every integer type; every pair of collections", "why_tests_cant": "Composition of index arithmetic over all values.", "anchors": ["src/digital.rs: Chain", "src/digital.rs: Restrict", "src/digital.rs: HexUpper", "src/digital.rs: HexLower"]}
{"id": "C19", "title": "Adapters turn a fixed collection into an ordinary one", "statement": "One would expect one_based(), Restrict and Chain to keep a fixed collection fixed; they do not. Behind any of the three adapters, a collection writes a single symbol exactly for the nominals in its range, writes two or more of its own symbols for every nominal beyond, and never consults a fallback.", "quantifier": "every fixed collection and adapter", "why_tests_cant": "A claim about all adapter compositions.", "anchors": ["src/digital.rs: OneBased", "src/digital.rs: Restrict", "src/digital.rs: Chain", "src/digital.rs: DigitCollection::fixed"]}
{"id": "C20", "title": "The integer type does not matter", "statement": "Formatting the same number as u8, u16, u32, u64, u128 or usize gives the same text or the same kind of error (with the number as payload) in every nominal system of the crate, on every pointer width.", "quantifier": "every pair of integer types, every number both can hold, every system", "why_tests_cant": "Type-dependent branches (values that do not fit T are skipped) over all values.", "anchors": ["src/lib.rs: Nominal", "src/additive.rs: AdditiveSet::try_format_nominal", "src/chinese.rs: format_chinese", "src/hebrew.rs", "src/digital.rs: try_format_nominal"]}
{"id": "C21", "title": "Additive numerals add up", "statement": "For any AdditiveSet accepted by new() that contains a symbol of value 1, formatting n >= 1 writes symbols in descending value order whose values sum to exactly n, using as many of the largest symbol as fit at each step (greedy), with no symbol of value 0.", "quantifier": "every strictly descending symbol table with a unit symbol, every nominal", "why_tests_cant": "Greedy decomposition for all tables and values.", "anchors": ["src/additive.rs: AdditiveSet::try_format_nominal"]}
{"id": "C22", "title": "What an additive numeral loses", "statement": "Formatting with an AdditiveSet never reports a lost remainder: the values of the written symbols sum to n minus a remainder that is smaller than every symbol of non-zero value. The remainder is 0 for every n if and only if the table has a symbol of value 1. (So the expectation that a successful result always sums to n is false of the code for tables without a unit symbol.)", "quantifier": "every table accepted by new(), every nominal", "why_tests_cant": "Depends on number-theoretic properties of all tables.", "anchors": ["src/additive.rs: AdditiveSet::try_format_nominal"]}
{"id": "C23", "title": "Additive zero", "statement": "Formatting 0 yields exactly the symbol of value 0 when the table ends with one and Error::NoZeroSymbol otherwise; for n > 0 the zero symbol is never written.", "quantifier": "every table accepted by new(), every nominal and integer type", "why_tests_cant": "All tables.", "anchors": ["src/additive.rs: AdditiveSet::{new,try_format_nominal}"]}
{"id": "C24", "title": "AdditiveSet::new accepts exactly strictly descending tables", "statement": "AdditiveSet::new panics if and only if the values are not strictly descending.", "quantifier": "every table of every length", "why_tests_cant": "All tables of all lengths.", "anchors": ["src/additive.rs: AdditiveSet::new"]}
{"id": "C25", "title": "Roman numerals are built place by place", "statement": "RomanUpper/RomanLower of n >= 1 is: floor(n/10^6) copies of M with overline, then for each decimal place from 10^5 down to 1 the conventional group for that digit (e.g. hundreds: nothing, C, CC, CCC, CD, D, DC, DCC, DCCC, CM), with overlined letters from 4000 up.", "quantifier": "every nominal of every integer type", "why_tests_cant": "Greedy subtraction versus digit-wise construction for all values.", "anchors": ["src/additive.rs: RomanUpper", "src/additive.rs: RomanLower"]}
{"id": "C26", "title": "Distinct numbers have distinct Roman numerals", "statement": "Two nominals with the same RomanUpper (or RomanLower) text are equal.", "quantifier": "every pair of nominals of unbounded size", "why_tests_cant": "Uniqueness over all pairs.", "anchors": ["src/additive.rs: RomanUpper", "src/additive.rs: RomanLower"]}
{"id": "C27", "title": "Upper and lower case variants differ only in case", "statement": "RomanLower text is the lower-casing of RomanUpper text for every n. ArmenianLower text is the lower-casing of ArmenianUpper text without its spaces; it is the plain lower-casing if and only if the units digit written is not 1 (the upper-case symbol for 1 carries a trailing space).", "quantifier": "every nominal", "why_tests_cant": "All values.", "anchors": ["src/additive.rs: RomanLower", "src/additive.rs: ArmenianUpper", "src/additive.rs: ArmenianLower"]}
{"id": "C28", "title": "Armenian, Georgian, Japanese and Korean numerals are digit-by-digit up to 9999", "statement": "For 1 <= n <= 9999 the text is the concatenation, from thousands to ones, of the symbol for each non-zero decimal digit at its place; for larger n the largest symbol is repeated first (9000, or 10000 for Georgian).", "quantifier": "every nominal", "why_tests_cant": "10^4 values times nine systems, plus unboundedly many larger ones.", "anchors": ["src/additive.rs: ArmenianUpper", "src/additive.rs: ArmenianLower", "src/additive.rs: Georgian", "src/additive.rs: JapaneseFormal", "src/additive.rs: JapaneseInformal", "src/additive.rs: HangeulFormal", "src/additive.rs: HanjaInformal", "src/additive.rs: HanjaFormal"]}
{"id": "C29", "title": "Additive East-Asian, Armenian and Georgian numerals can be read back", "statement": "Reading the text by the usual rule (sum of letter values; or digit times place for CJK) gives n for every n, so distinct numbers have distinct texts.", "quantifier": "every nominal of unbounded size", "why_tests_cant": "Uniqueness/readability over all values.", "anchors": ["src/additive.rs"]}
{"id": "C30", "title": "When standard Roman reading gives the number back", "statement": "Reading the Roman text of n by the standard subtractive rule (a letter smaller than its successor is subtracted; an overline multiplies by 1000) gives n if and only if neither the 10^4 nor the 10^5 digit of n is 9; otherwise it falls short by exactly 40,000 and 400,000 respectively (90,000 is written L̅C̅ and 900,000 D̅M̅). RomanLower texts, put in capitals, are read likewise.", "quantifier": "every nominal", "why_tests_cant": "All values.", "anchors": ["src/additive.rs: RomanUpper", "src/additive.rs: RomanLower"]}
{"id": "C31", "title": "Hebrew letters add up", "statement": "For every n >= 1 the letters of the Hebrew text have values summing to n (geresh and gershayim count 0), and 0 gives NoZeroSymbol; hence distinct numbers have distinct texts.", "quantifier": "every nominal of every integer type", "why_tests_cant": "All values.", "anchors": ["src/hebrew.rs: Hebrew"]}
{"id": "C32", "title": "Hebrew avoids the divine names", "statement": "No Hebrew text contains yod followed by he or yod followed by vav: numbers ending in 15 and 16 (in the last two places) end in tet-gershayim-vav and tet-gershayim-zayin.", "quantifier": "every nominal", "why_tests_cant": "All values.", "anchors": ["src/hebrew.rs: Hebrew"]}
{"id": "C33", "title": "Hebrew single-letter numbers are marked", "statement": "The text is wrapped in geresh ... gershayim exactly when the number is written with a single letter, i.e. for 1..9, 10..90 (tens) and 100, 200, 300, 400; otherwise letters appear in non-increasing value order with tav repeated floor(n/400) times first.", "quantifier": "every nominal", "why_tests_cant": "All values.", "anchors": ["src/hebrew.rs: Hebrew"]}
{"id": "C34", "title": "Ethiopic follows the CSS counter-style algorithm", "statement": "For every n >= 1 the text equals the result of the CSS Counter Styles ethiopic-numeric algorithm (split into two-digit groups, drop digits of zero groups and of value-1 groups that are most significant or odd-indexed, append U+137B after non-zero odd groups and U+137C after even groups except the last); 0 gives NoZeroSymbol.", "quantifier": "every nominal of every integer type", "why_tests_cant": "All values; interactions of group parity and zero groups.", "anchors": ["src/ethiopic.rs: format_ethiopic"]}
{"id": "C35", "title": "Distinct numbers have distinct Ethiopic texts", "statement": "The Ethiopic text can be read back to n, so no two nominals share a text.", "quantifier": "every pair of nominals of unbounded size", "why_tests_cant": "Digit dropping might collide; only a proof covers all pairs.", "anchors": ["src/ethiopic.rs: format_ethiopic"]}
{"id": "C36", "title": "Chinese formatting never panics and its range is exact", "statement": "In the myriad, mid and long scales every value of every integer type formats without OutOfBounds or panic; in the short scale the result is OutOfBounds(n) exactly when n >= 10^15 and formatting otherwise succeeds.", "quantifier": "every nominal of every integer type, every option combination", "why_tests_cant": "Array indexing, expect() and unreachable!() on value/type-dependent paths.", "anchors": ["src/chinese.rs: format_chinese", "src/chinese.rs: ChineseScale::format_short_rank", "src/chinese.rs: ChineseScale::format_scaled_rank"]}
{"id": "C37", "title": "Chinese numerals can be read back", "statement": "Reading the text by the usual rule (digit times place in each section of up to four digits; a large unit multiplies everything to its left back to the next larger unit; 零 counts nothing; a leading 十 counts ten) gives n, for every scale, formality and character set; hence distinct numbers have distinct texts.", "quantifier": "every nominal of every integer type, all scales and variants", "why_tests_cant": "Nested scale recursion over all 128-bit values.", "anchors": ["src/chinese.rs"]}
{"id": "C38", "title": "零 hygiene", "statement": "For n > 0 the Chinese text never starts or ends with 零 and never contains two adjacent 零; 0 is exactly 零.", "quantifier": "every nominal, all scales and variants", "why_tests_cant": "The last_char_is_zero flag is threaded through recursive calls.", "anchors": ["src/chinese.rs: format_chinese_inner", "src/chinese.rs: ChineseScale"]}
{"id": "C39", "title": "Formal and informal differ only in a leading one before ten", "statement": "The informal text equals the formal text except that when the formal text starts with one-ten (一十/壹拾) the informal text omits that leading one; both variants are out of range for the same numbers.", "quantifier": "every nominal, all scales and character sets", "why_tests_cant": "All values.", "anchors": ["src/chinese.rs: format_chinese_inner"]}
{"id": "C40", "title": "Character-set options are pure substitutions and scale options overwrite each other", "statement": "financial() and simplified/traditional change the text only by replacing each character with its counterpart, never its structure, storage or error; options are order-independent between usage and scale, and the last scale selected wins.", "quantifier": "every nominal, every sequence of builder calls", "why_tests_cant": "All values and option sequences.", "anchors": ["src/chinese.rs: impl_chinese_options", "src/chinese.rs: ChineseOptions"]}
{"id": "C41", "title": "format_nominal always succeeds and falls back to decimal", "statement": "format_nominal/to_nominal always return a string (no panic, no endless recursion) for every built-in system: the system's text when try_format_nominal succeeds, otherwise the ASCII decimal numeral of the same number - even in no-alloc builds.", "quantifier": "every built-in system, every nominal of every integer type, both feature configurations", "why_tests_cant": "into_decimal calls format_nominal again; termination needs Decimal to succeed for every value.", "anchors": ["src/lib.rs: NominalSystem::format_nominal", "src/lib.rs: Error::into_decimal", "src/lib.rs: UnwrapOrDecimal"]}
{"id": "C42", "title": "Errors are truthful", "statement": "NoZeroSymbol is returned only for nominal 0, and OutOfBounds/OutOfMemory always carry the nominal that was passed in, for every built-in system and for every user-built digit collection, additive set and enumerated set.", "quantifier": "every system, every nominal, every configuration", "why_tests_cant": "Errors bubble up through several conversions and a fallback.", "anchors": ["src/lib.rs: Error", "src/lib.rs: WithNominal"]}
{"id": "C43", "title": "no-alloc builds agree with alloc builds up to 62 bytes", "statement": "For every built-in system, a no-alloc build returns the same text as an alloc build if that text is at most 62 UTF-8 bytes long, OutOfMemory(n) if it is longer, and the same error if the alloc build fails.", "quantifier": "every built-in system, every nominal of every integer type", "why_tests_cant": "A two-program equivalence over all values; CI runs tests with alloc only.", "anchors": ["Cargo.toml: features", "src/nominalstring.rs", "src/lib.rs: Error::OutOfMemory"]}
{"id": "C44", "title": "Boxed systems are transparent", "statement": "Formatting through Box<dyn NominalSystem>, Rc or Arc gives the same try_format_nominal result as the system itself, and the same format_nominal result for every system that does not override format_nominal. (An override is bypassed when boxed.)", "quantifier": "every system including user-defined ones, every nominal", "why_tests_cant": "Quantifies over all implementations of the trait.", "anchors": ["src/lib.rs: impl NominalSystem for Box/Rc/Arc"]}
{"id": "C45", "title": "Enumerated sets", "statement": "EnumeratedSet returns the n-th symbol (counting from 0 for new, from 1 for zeroless), NoZeroSymbol for 0 when zeroless, and OutOfBounds(n) for every n beyond the set, including values that do not fit usize; it never panics in alloc builds.", "quantifier": "every symbol table of every length, every nominal of every integer type, every pointer width", "why_tests_cant": "All tables, u128 values beyond usize.", "anchors": ["src/enumerated.rs: EnumeratedSet"]}
{"id": "C46", "title": "No heap allocation unless needed", "statement": "The NominalString returned by any built-in system is inline exactly when its text is at most 62 bytes.", "quantifier": "every built-in system, every nominal of every integer type", "why_tests_cant": "All values; depends on intermediate pushes.", "anchors": ["src/nominalstring.rs: NominalString::is_inline"]}
{"id": "C47", "title": "Decimal agrees with ordinary integer printing", "statement": "Decimal text of n is the ordinary base-ten ASCII numeral of n; every other ten-digit numeric collection gives the same numeral with each digit replaced by its own digit character.", "quantifier": "every nominal of every integer type, all numeric collections", "why_tests_cant": "All values.", "anchors": ["src/digital.rs: Decimal", "src/digital.rs: EasternArabic"]}
{"id": "C48", "title": "Length bounds", "statement": "The number of symbols written by a digit collection of N symbols is the least k >= 1 with n < N^k (with a zero digit), n < N + N^2 + ... + N^k (without, counting from zero), or n <= N + N^2 + ... + N^k (without, counting from one); for N >= 2 it is at most the bit width of the integer type. A larger number never has a shorter label, also in fixed collections with any chain of fallbacks, unless a fixed collection has a zero digit and yet says it counts from one.", "quantifier": "every collection, every chain of fallbacks, every pair of nominals of every integer type", "why_tests_cant": "All values and bases.", "anchors": ["src/digital.rs: try_format_nominal"]}
{"id": "C49", "title": "Adapter panics are exactly the documented ones", "statement": "An empty digit collection panics (remainder by zero) whenever it keeps the number (that is, unless it is fixed and hands the number to its fallback: all but 0 if it counts from one) and no error is returned first; a Restrict longer than the collection it wraps panics exactly when a digit index beyond the wrapped collection is needed, unless a build without alloc has already run out of its 62 bytes with the digits written before (from the last digit backwards), when it gives OutOfMemory.", "quantifier": "every collection, every count, every nominal of every integer type, every build", "why_tests_cant": "Panic conditions over all inputs.", "anchors": ["src/digital.rs: Restrict", "src/digital.rs: NoFallback", "src/digital.rs: DigitCollection::digit"]}
{"id": "C50", "title": "When push_front makes a slice over uninitialised bytes", "statement": "The byte slice that push_front creates over the buffer of a forward string (as_bytes_mut) covers a byte that has never been written if and only if the new character has more bytes than the current text. (So the SAFETY comment, which claims that all bytes are initialised, is false of the code, e.g. for new().try_push_front('x').)", "quantifier": "every reachable string, every character", "why_tests_cant": "Reading an uninitialised byte is invisible to a unit test; it needs a semantics with undefined cells.", "anchors": ["src/nominalstring.rs: NominalString::push_front", "src/nominalstring.rs: NominalString::as_bytes_mut"]}
{"id": "C51", "title": "One catalogue for all named systems", "statement": "For every named system of the crate and every number n, the result (text or error) is the one given by a fixed table that mentions neither the integer type, nor the build features, nor the pointer width, nor the crate's algorithm: decimal numerals over a Unicode digit block, odometer column names, greedy additive numerals, enumerated symbols, and the script-specific numerals.", "quantifier": "every named system, every nominal of every integer type, every build configuration", "why_tests_cant": "A complete functional specification of the public constants; all values.", "anchors": ["src/lib.rs", "src/digital.rs: impl_digit_set", "src/additive.rs", "src/hebrew.rs", "src/ethiopic.rs", "src/chinese.rs"]}
{"id": "C52", "title": "When chains of fallbacks end", "statement": "For every digit collection with any chain of Fallback types, formatting n fails to terminate exactly when either every collection of the chain is fixed, does not cover n and has a non-empty fallback (as with a fixed collection that names itself as Fallback), or the chain reaches a collection that never finishes by itself (C17).", "quantifier": "every collection and every chain of fallback types, every nominal", "why_tests_cant": "Termination for arbitrary user-defined fallback chains.", "anchors": ["src/digital.rs: DigitCollection::Fallback", "src/digital.rs: NoFallback", "src/digital.rs: try_format_nominal"]}
{"id": "C53", "title": "Safe for every implementation of DigitCollection", "statement": "For every implementation of DigitCollection, also one whose methods answer differently at every call, panic, or change global state, try_format_nominal never executes undefined behaviour; if it returns a string, its text consists of exactly the characters that digit() returned during the call, latest first, valid UTF-8, inline iff it has at most 62 bytes; if it returns an error, the error carries the number asked for. Overflow checks only turn outcomes into panics.", "quantifier": "every implementation of the open trait with any hidden state, every chain of fallbacks, every nominal, every build and both overflow profiles", "why_tests_cant": "Tests use well-behaved collections; this is a safety claim about unsafe code under adversarial safe callers.", "anchors": ["src/digital.rs: impl NominalSystem for D", "src/digital.rs: DigitCollection", "src/nominalstring.rs"]}
{"id": "C54", "title": "Adapters on arbitrary collections", "statement": "OneBased, Chain and Restrict of collections whose methods cause no undefined behaviour cause none; a Chain whose combined length overflows usize panics on every formatting call when overflow checks are on, and otherwise counts in base (sum mod 2^width).", "quantifier": "every pair of collections, every nominal, every pointer width, both overflow profiles", "why_tests_cant": "Overflow needs collections with more than 2^width digits in total.", "anchors": ["src/digital.rs: Chain", "src/digital.rs: OneBased", "src/digital.rs: Restrict"]}
{"id": "C55", "title": "The buffer depends on the text only", "statement": "The buffer of an inline NominalString is determined by its text and direction: the encoded text at one end, and all other cells never written, so nothing of an earlier state remains and equal strings of one direction are identical in memory. Prepending to a reverse string and appending to a forward string leaves the bytes of the old text where they are. A string keeps, through every operation, the direction it was created with: reverse exactly for new_reverse.", "quantifier": "every reachable string, every history", "why_tests_cant": "Needs the contents of memory that the API does not expose, over all histories.", "anchors": ["src/nominalstring.rs: InlineString::push", "src/nominalstring.rs: InlineString::push_front", "src/nominalstring.rs: InlineString::push_str"]}
{"id": "C56", "title": "No named system writes two numbers alike", "statement": "If a named system returns the same text for n and m - possibly for different integer types, builds and pointer widths - then n = m.", "quantifier": "every named system, every pair of nominals of every integer types, every pair of build configurations", "why_tests_cant": "All pairs of values; equality of labels across types and builds.", "anchors": ["src/lib.rs", "src/digital.rs: impl_digit_set", "src/additive.rs", "src/hebrew.rs", "src/ethiopic.rs", "src/chinese.rs"]}
{"id": "C57", "title": "The first number that needs the heap", "statement": "Every named system has a threshold (for instance 11,315 for Hebrew, 7,884,888 for Roman, 11,111,111,111 for all Chinese systems, 10^20 for three-byte digits, none for Decimal, hexadecimal, Latin and Greek letters): below it every text is inline and OutOfMemory never occurs; at it the text is on the heap with alloc and OutOfMemory without. For digit systems everything from the threshold on is on the heap. Consequently no named system ever returns OutOfMemory for a u8, nor a digit system for a u64.", "quantifier": "every named system, every nominal of every integer type, every build configuration", "why_tests_cant": "Exact threshold: all smaller values must be covered; needs length bounds for every algorithm.", "anchors": ["src/nominalstring.rs: INLINE_CAPACITY", "src/lib.rs: NominalSystem::try_format_nominal", "src/chinese.rs", "src/hebrew.rs", "src/ethiopic.rs", "src/additive.rs"]}
{"id": "C58", "title": "Sorting the labels of a digit collection", "statement": "For a digit collection whose symbols are in code-point order, comparing the texts of n and m first by number of characters and then with the string order of NominalString gives the order of n and m; two texts of equal length therefore compare as the numbers do (for a collection counting from one: if the symbols outnumber the values of both integer types or of neither). For texts of one length this holds for all numbers if and only if the symbols are in code-point order. All named digit collections have it except CjkDecimal, the two Iroha orders, CjkHeavenlyStem and CjkEarthlyBranch, which do not.", "quantifier": "every collection, every pair of nominals of every integer types", "why_tests_cant": "An equivalence over all alphabets and all pairs of numbers.", "anchors": ["src/nominalstring.rs: Ord for NominalString", "src/digital.rs: try_format_nominal"]}
{"id": "C59", "title": "The last symbol is the remainder", "statement": "The last character written by a collection of N digits is digit n mod N (collections with a zero digit or counting from zero), and the characters before it are the text of n / N, respectively n / N - 1 for collections without zero digit; for a collection without zero digit counting from one it is digit (n - 1) mod N, after the text of (n - 1) / N. Numbers below N (up to N, counting from one) have this character only.", "quantifier": "every collection, every nominal", "why_tests_cant": "All values and bases.", "anchors": ["src/digital.rs: try_format_nominal"]}
{"id": "C60", "title": "Numbers above the largest additive symbol, and numbers below the smallest", "statement": "In every accepted additive table with largest value v and symbol z, the text of n + k*v is k copies of z followed by the text of n. With non-empty symbols the text is empty exactly for the numbers below every non-zero value of the table: such numbers are silently written as nothing.", "quantifier": "every accepted table, every nominal", "why_tests_cant": "All tables, all values.", "anchors": ["src/additive.rs: AdditiveSet::new", "src/additive.rs: try_format_nominal"]}
{"id": "C61", "title": "User-defined systems and the integer type", "statement": "For every accepted additive table, every enumerated set and every digit collection that has a zero digit or counts from zero (fixed or not, with any number of symbols, and fallbacks of the same kind), the result for a number, text, error or panic, does not depend on the integer type or the pointer width, nor does it whether formatting comes to an end. For a one-based collection without zero digit it does not either, unless the collection has more symbols than one type has values and fewer than the other; in that case the narrow type gives every number the next symbol, and gives 0 a symbol.", "quantifier": "every user-defined system, every pair of integer types, every nominal of both", "why_tests_cant": "All systems, all values, all pairs of types.", "anchors": ["src/additive.rs: try_format_nominal", "src/digital.rs: try_format_nominal", "src/enumerated.rs: try_format_nominal"]}
{"id": "C62", "title": "Laws of the adapters", "statement": "For all digit collections: a.and(b).and(c) formats like a.and(b.and(c)); a second restrict replaces the first; one_based is idempotent, commutes with restrict, moves through and to the first operand and has no effect on the second; a restrict to at most the length of the first operand hides the second. NoFallback is an empty collection: NoFallback.and(c) counts with the symbols of c from zero without a zero digit, c.and(NoFallback) formats like a c that is not fixed, and NoFallback alone panics on every number (one_based() of it refuses 0 and panics on the rest).", "quantifier": "every collection, every number, every integer type and build", "why_tests_cant": "Equations between arbitrary user-defined collections.", "anchors": ["src/digital.rs: Chain", "src/digital.rs: Restrict", "src/digital.rs: OneBased"]}
{"id": "C63", "title": "Where the Chinese scales part", "statement": "Two different scales write a number alike exactly below their point of divergence: 10^5 if one of them is the short scale, 10^12 for myriad against mid or long, 10^24 for mid against long. From that point on no number of any type is written alike in both; below it text, storage and errors all agree.", "quantifier": "every pair of different scales, every number, every script and usage", "why_tests_cant": "An equivalence over all 128-bit numbers and all pairs of scales.", "anchors": ["src/chinese.rs: ChineseScale", "src/chinese.rs: ChineseScale::format", "src/chinese.rs: format_short_rank", "src/chinese.rs: format_scaled"]}
{"id": "C64", "title": "Roman numerals repeat no sign four times", "statement": "Reading a letter with its overline as one sign, the texts of RomanUpper and RomanLower contain four equal signs in a row exactly for numbers from 4,000,000 on.", "quantifier": "every nominal of every integer type, every build", "why_tests_cant": "An equivalence over all numbers; the places below a million interact at their borders.", "anchors": ["src/additive.rs: RomanUpper", "src/additive.rs: RomanLower", "src/additive.rs: try_format_nominal"]}
{"id": "C65", "title": "No named system writes nothing", "statement": "Whenever a named system returns a text, from try_to_nominal or to_nominal, the text is not empty; in particular zero is a symbol or an error.", "quantifier": "every named system, every nominal of every integer type, every build", "why_tests_cant": "All systems, all values.", "anchors": ["src/lib.rs: Nominal::to_nominal", "src/lib.rs: Nominal::try_to_nominal", "src/additive.rs", "src/hebrew.rs", "src/ethiopic.rs", "src/chinese.rs"]}
{"id": "C66", "title": "The characters of each system", "statement": "Every named system has a repertoire (for instance ten digits from one code point on, nine Roman characters, the Chinese units of the chosen script, usage and scale): every text consists of characters of the repertoire, and every character of the repertoire occurs in some text. Apart from ASCII letters and digits no text contains an ASCII character, so no text contains markup, quotes, separators or line breaks, except for the space ArmenianUpper writes after the letter for 1.", "quantifier": "every named system, every nominal of every integer type, every build", "why_tests_cant": "All texts of all numbers.", "anchors": ["src/digital.rs: impl_digit_set", "src/additive.rs", "src/hebrew.rs", "src/ethiopic.rs", "src/chinese.rs"]}
{"id": "C67", "title": "The conversation with a user's collection", "statement": "For an implementation of DigitCollection whose answers may change from call to call: try_format_nominal returns a given text, or a given error, exactly if the collection's answers form one of the conversations listed in Spec/Protocol.lean, and the calls are made in exactly that order. The digits asked for are those of the number in a positional system whose base at each place is the length answered last; NoZeroSymbol is returned exactly if 0 is to be written and has_zero_digit, zero_based, has_zero_digit answered false; a length beyond the integer type gives OutOfBounds even after the last digit. If a method of the collection panics during such a conversation, the call panics, and if a method does not return, neither does the call; the call panics only if a method does, or if the collection has no symbols or contradicts itself about zero with overflow checks.", "quantifier": "every collection with state, every nominal, every integer type, both build profiles", "why_tests_cant": "All implementations of a public trait and all sequences of answers.", "anchors": ["src/digital.rs: DigitCollection", "src/digital.rs: try_format_nominal"]}
{"id": "C68", "title": "Exactly the well-formed numerals", "statement": "For the additive systems, Hebrew and Ethiopic, the texts returned for the positive numbers below a bound are exactly the non-empty texts of a regular expression (that the build can hold): below 4000 the Roman numerals are M{0,3}(CM|CD|D?C{0,3})(XC|XL|L?X{0,3})(IX|IV|V?I{0,3}); Armenian, Georgian, Japanese and Korean are copies of the top symbol followed by at most one symbol per place; Hebrew is ת{0,k}[קרש]? and tens and ones with ט״ו and ט״ז for 15 and 16, single letters between marks; Ethiopic is a sequence of four-digit stretches separated by ፼ in which ፩ is left out before ፻ and at the beginning before ፼.", "quantifier": "every text, every bound that is a multiple of the largest symbol and fits the integer type, every integer type and build", "why_tests_cant": "An equality of infinite families of sets of texts: nothing malformed is returned and nothing well-formed is missing.", "anchors": ["src/additive.rs: RomanUpper", "src/additive.rs: try_format_nominal", "src/hebrew.rs: try_format_nominal", "src/ethiopic.rs: try_format_nominal"]}
{"id": "C69", "title": "How long formatting takes", "statement": "The loop of a digit collection runs exactly once per character of the text it returns, at most once per bit of the integer type if there are at least two symbols, and without alloc at most 62 times to the end whatever the collection and the number. An additive set runs once per copy of a symbol, however many; without alloc at most 62 times per non-empty symbol, but an empty symbol, which AdditiveSet::new accepts, makes it run n / value times without writing anything. The loop for one Hebrew letter runs at most once per copy, exactly so for the letter of value 400 in numbers of several letters, and at most 31 times without alloc. The Ethiopic loop runs at most 20 times for a 128-bit number, so its i32 counter cannot overflow. The Chinese formatter, in all scales but the short one, formats each group of four digits that is not zero once, from the highest down, and no other group; the short scale formats the last group only, if it is not zero; on an error, the first few of these. So a number takes at most ten calls, although each of the nested ranks calls the next one twice.", "quantifier": "every user-defined collection (consistent or not), every nominal of every integer type, both builds, every budget of iterations", "why_tests_cant": "Exact iteration counts over all inputs and all user-defined systems.", "anchors": ["src/digital.rs: try_format_nominal", "src/additive.rs: try_format_nominal", "src/hebrew.rs: try_format_nominal", "src/ethiopic.rs: format_ethiopic", "src/chinese.rs: format_chinese, format_short_rank, format_scaled_rank, format_next_scaled_rank"]}
{"id": "C70", "title": "Printing and copying a NominalString", "statement": "Display prints the text of every NominalString laid out as the format string asks: at most precision characters, then fill up to width characters on the side(s) given by the alignment, so a column of width w lines up exactly for texts of at most w characters and longer ones are printed in full. Strings that are == print alike under every format string, and strings that print alike under {} are ==. Debug ignores width and precision and prints NominalString(Inline(\"...\")) or NominalString(Heap(\"...\")), in {:#?} on five indented lines; for a formatted nominal it says Inline exactly for texts of at most 62 bytes. A clone shows the same text in the same storage and behaves like the original under every later history of operations.", "quantifier": "every string reachable through the API, every fill, alignment, width, precision and alternate flag, every way of escaping characters, every named system and nominal", "why_tests_cant": "All reachable strings times all format strings.", "anchors": ["src/nominalstring.rs: Display for NominalString", "src/nominalstring.rs: Debug for MaybeInline", "src/nominalstring.rs: derive(Debug), derive(Clone)"]}
{"id": "C71", "title": "Chinese numerals follow the decimal digits", "statement": "A Chinese numeral can be written by one pass over the decimal notation. In the short scale every digit other than zero is written with the unit of its place, with a zero sign before it exactly when the digit written before is not its neighbour. In the other scales every group of four digits other than zero is written that way, with a zero sign before it exactly when something precedes it and it has no thousands digit, and the large unit after a group depends only on its position. The digit characters of a formal numeral are the digits of the Decimal text without its zeros, in order, in every scale; an informal numeral lacks a leading one exactly when it starts with ten, that is when the leading group of four digits (in the short scale the number) is between 10 and 19.", "quantifier": "every nominal in range of every integer type, the four public types, both usages, all four scales", "why_tests_cant": "Relates the texts of two systems over all numbers up to 2^128.", "anchors": ["src/chinese.rs: format_chinese, format_chinese_inner", "src/chinese.rs: ChineseScale::format, format_short_rank, format_scaled, format_scaled_rank"]}
{"id": "C72", "title": "How long the texts get", "statement": "For every named system and every integer type, the longest text of a value of the type has a known number of characters: 39 for decimal digits at 128 bits, 32 for hexadecimal, 28 for letters, 58 for Ethiopic, 77 for Chinese (29 in the short scale), while Roman, Hebrew and the other additive numerals grow with the number and reach for example 954,443 characters at 32 bits in Japanese and 46,116,860,184,273,882 at 64 bits in Hebrew. No value has a longer text, and one value of the type has a text of exactly that length. A Chinese numeral never has more than two characters per decimal digit, less one, and an Ethiopic numeral never more than one per digit and one per two digits, less one.", "quantifier": "all values of all integer types, every named system (the four Chinese types with all options), all builds", "why_tests_cant": "A maximum over up to 2^128 values cannot be found by trying them.", "anchors": ["src/lib.rs: Nominal::try_to_nominal", "src/additive.rs: AdditiveSet::try_format_nominal", "src/additive.rs: RomanUpper, RomanLower", "src/hebrew.rs: Hebrew", "src/ethiopic.rs: Ethiopic", "src/chinese.rs: format_chinese", "src/digital.rs: DigitCollection::try_format_nominal"]}
{"id": "C73", "title": "The outcome of every user-built digit collection and its chain of fallbacks", "statement": "Whatever digit collections are chained by their Fallback types - fixed or not, with or without a zero digit, counting from zero or one, with no symbol, one symbol or more symbols than the integer type has values - formatting, unless it runs forever (C52 says when), ends with exactly one outcome: the number is handed down past every fixed collection that does not cover it, OutOfBounds is returned when the next collection has no symbols, and the first collection that keeps the number writes it (as its own symbol, as a positional numeral, as a column name counted from zero or one), refuses zero, runs out of memory or panics, by conditions on its symbols and flags alone. A panic happens only in the first collection and only when it has no symbols; undefined behaviour never. The adapters and, Restrict and one_based keep a collection within this description; they never hand a number over, take the zero digit and the start of counting from the (first) collection - one_based counts from one -, and write with both lists of symbols, the leading symbols, or the same symbols.", "quantifier": "all chains of digit collections (including infinite ones), all values of all integer types, all builds", "why_tests_cant": "The collections, their chains and the values are unbounded in number and user supplied.", "anchors": ["src/digital.rs: DigitCollection::try_format_nominal", "src/digital.rs: DigitCollection::Fallback", "src/digital.rs: Chain", "src/digital.rs: Restrict", "src/digital.rs: OneBased", "src/digital.rs: DigitSet", "src/digital.rs: NoFallback"]}
{"id": "C74", "title": "Exactly the well-formed Chinese numerals", "statement": "The texts the Chinese systems return for the positive numbers below a power of ten are exactly the texts of a grammar. Short scale: digits, each followed by the unit of its place, in descending places, with a zero sign between two digits exactly when a place is skipped. Myriad, mid and long scale: groups of up to four digits written that way; a large unit follows a group (myriad), up to two groups joined by the ten-thousand sign (mid), or any numeral with smaller units (long); what follows a large unit has smaller units and comes after a zero sign exactly when it does not begin with a thousands digit. An informal numeral begins with ten instead of one-ten. Nothing else is ever returned and every such text is returned for some number, provided the build can hold it.", "quantifier": "all texts, all four Chinese types with all options, all integer types and builds", "why_tests_cant": "Both the numbers and the texts to be excluded are unbounded in number.", "anchors": ["src/chinese.rs: format_chinese, format_chinese_inner", "src/chinese.rs: SimplifiedChineseInformal, SimplifiedChineseFormal, TraditionalChineseFormal, TraditionalChineseInformal"]}
{"id": "C75", "title": "to_nominal writes no two numbers alike, and its fallback is recognisable", "statement": "If to_nominal returns the same text for n and m in a named system - possibly for different integer types, builds and pointer widths - then n = m, although it replaces failures by decimal numerals. The text contains an ASCII digit, in a system other than Decimal and hexadecimal, exactly when try_to_nominal fails for that number; those three systems never fail.", "quantifier": "every named system, every pair of nominals of every integer types, every pair of build configurations", "why_tests_cant": "All pairs of values, where one is written by the system and the other by the fallback.", "anchors": ["src/lib.rs: to_nominal", "src/lib.rs: format_nominal", "src/lib.rs: NominalSystem"]}
{"id": "C76", "title": "The tables of the documentation", "statement": "The generator of the preview tables (examples/previews.rs) shows, for a digit collection of len symbols counting from b, the first five numbers and those around b + len and b + len*len, in increasing order exactly if len >= 3; it panics exactly for len >= 65536 or an empty collection counting from 0. Around len*len the number of symbols changes from two to three only if there is a zero digit. For any system and list of numbers every row shows the number in decimal beside its name, rows of dots stand exactly where neighbours are not consecutive, and both columns are filled to the largest width that occurs, so all rows line up.", "quantifier": "every digit collection, every system, every list of u32 numbers below the maximum, every measure of text width", "why_tests_cant": "The tables that are checked in show only the built-in systems and a dozen numbers each.", "anchors": ["examples/previews.rs: preview", "examples/previews.rs: DigitPreview::preview_values"]}
{"id": "C77", "title": "What a digit collection is asked", "statement": "Formatting asks a collection only what it may rely on being asked: digit(i) only with i below the length it reported last; zero_based only directly after has_zero_digit answered false or fixed answered true; default only directly after the collection said that it is fixed and in which range, and the number lies outside that range; is_empty only of a fallback just created; fixed only directly after len. So an implementation that checks all this, even with undefined behaviour on a breach, behaves exactly as without the checks. For collections that are never fixed zero_based is only called after has_zero_digit returned false, as its documentation says; for fixed ones that is not so.", "quantifier": "every implementation of DigitCollection with state, panics and changing answers, every chain of fallbacks, every integer type and value, with and without overflow checks", "why_tests_cant": "Quantifies over all implementations of a public trait and over every call made to them, not over results.", "anchors": ["src/digital.rs: DigitCollection", "src/digital.rs: zero_based", "src/digital.rs: try_format_nominal"]}
{"id": "C78", "title": "CSS counter styles", "statement": "The systems that the changelog lists as taken from the CSS counter styles specification, and the others that have a predefined style there, write every number in the range of the style exactly as the algorithm of the standard does: numeric, alphabetic (the crate's n is the style's n + 1), additive, fixed with the fallback of the two CJK series, ethiopic-numeric and the Chinese longhand styles (0 to 9999, all scales). Digit collections, AdditiveSet and EnumeratedSet of the user follow the same algorithms. Deviations: 0 in the two series is NoZeroSymbol instead of the fallback; ArmenianUpper adds a space after the sign of 1, so it agrees exactly when the last digit is not 1; Hebrew has the letters of the style exactly below 1000.", "quantifier": "every number in the range of each style, every user-defined collection or set, every integer type and build", "why_tests_cant": "The standard is an independent algorithm, and ranges are unbounded or have thousands of values; the tests compare a dozen literals.", "anchors": ["CHANGELOG.md: v0.2.0", "CHANGELOG.md: v0.3.0", "src/chinese.rs: SimplifiedChineseInformal", "src/digital.rs: CjkHeavenlyStem", "src/additive.rs: AdditiveSet", "src/enumerated.rs: EnumeratedSet"]}
{"id": "C79", "title": "Comparing and printing results", "statement": "== on results of try_to_nominal is defined for all of them and is equality of what a caller sees: the texts of two Ok, wherever they are stored, or kind and number of two errors. For each named system the results for two numbers are == exactly if the numbers are. Printed with {:?}, a result shows Ok with the text and where it is stored, or Err with the kind of error and its number; different errors print differently. Printed with {:#?}, the same is spread over lines, one per level, each level indented by four more spaces.", "quantifier": "all results built through the API, all named systems, all pairs of values of all integer types, all builds", "why_tests_cant": "Equality of results over all pairs of numbers combines the absence of collisions of texts with the truthfulness of errors.", "anchors": ["src/lib.rs: Error", "src/nominalstring.rs: PartialEq for NominalString", "src/nominalstring.rs: Debug for MaybeInline"]}
{"id": "C80", "title": "A formatted nominal is an ordinary string", "statement": "Every string a formatter returns - for the named systems, for all user-defined digit collections (including those whose answers change), additive and enumerated sets - can be obtained with the constructors and pushes of NominalString, so everything said about such strings holds of it. After any further pushes at either end and edits in place, the text, is_inline() and the results of the pushes are those of a string started with the text of the number, however its buffer was filled.", "quantifier": "all systems, all values of all integer types, all histories of later operations, all builds", "why_tests_cant": "Histories after formatting are unbounded, and formatters leave the buffer in different states (filled from the front or the back).", "anchors": ["src/digital.rs: try_format_nominal", "src/additive.rs: try_format_nominal", "src/hebrew.rs: try_format_nominal", "src/ethiopic.rs: format_ethiopic", "src/chinese.rs: format_chinese", "src/nominalstring.rs: NominalString"]}
{"id": "C81", "title": "From one label to the next", "statement": "Counting up by one changes a label of a digit collection like an odometer, in terms of its characters alone: the last symbols of the alphabet at its end become first symbols and the symbol before them is replaced by the symbol after it; a label of last symbols only becomes one symbol longer, by the second symbol if there is a zero digit and by the first one if not. The first label is the first symbol (of 0, or of 1 with one_based()). With distinct symbols this rule leaves only one possible sequence of labels. The nineteen decimal systems, both hexadecimal ones and the ten alphabets count this way with the digits and letters of their scripts.", "quantifier": "every digit collection that is not fixed, every pair of successive values of every integer type, every build", "why_tests_cant": "A rule about all pairs of successive labels; tests look at single labels or at the first carry.", "anchors": ["src/digital.rs: try_format_nominal", "src/digital.rs: DigitSet", "src/digital.rs: OneBased"]}
{"id": "C82", "title": "No two named systems are the same", "statement": "Any two different named systems (47 types and the 32 settings of the Chinese ones) give different outcomes for some u128, so the derived == of the Chinese systems says whether two settings write alike. For each integer type it is known exactly which systems it cannot tell apart: Chinese scales that part above its largest value (10^5 with the short scale, 10^12 between myriad and mid or long, 10^24 between mid and long) and, for u8, simplified and traditional ordinary characters, which are the same up to 9999.", "quantifier": "all pairs of named systems and option settings, all values of each integer type, all builds", "why_tests_cant": "That two systems agree on a whole integer type is a statement about up to 2^128 values for each of some 3000 pairs.", "anchors": ["src/chinese.rs: ChineseOptions", "src/chinese.rs: impl_chinese_options", "src/digital.rs: impl_digit_set", "src/additive.rs: AdditiveSet"]}
{"id": "C83", "title": "Adapters as fallbacks", "statement": "A fallback is created with Default. Restrict::default() is restricted to no digits, so a fixed collection whose Fallback is a Restrict (or a chain of nothing else) behaves exactly as with NoFallback: OutOfBounds beyond its symbols, for every collection in front of it. A Chain as Fallback writes the numbers handed over with the symbols of its parts in order, those of restricted parts left out, with the zero digit and start of counting of its first part, even if that part contributes no symbols. Used directly, a default without symbols panics for every number but a one-based 0, which is NoZeroSymbol.", "quantifier": "all fallback types built from Chain, Restrict and user types, all collections in front of them, all values of all integer types, all builds", "why_tests_cant": "Fallback types nest without bound, and the effect of the derived Default is visible only beyond the symbols of a fixed collection.", "anchors": ["src/digital.rs: Restrict", "src/digital.rs: Chain", "src/digital.rs: NoFallback", "src/digital.rs: DigitCollection::Fallback", "src/digital.rs: try_format_nominal"]}
{"id": "C84", "title": "When one label stands for two numbers", "statement": "If two named systems both return a text, for whatever integer types and builds, it stands for the same number in both, unless the systems are one of eleven pairs (decimal and either hexadecimal; letters, hexadecimal and Roman numerals of one case; each kana in its two orders; formal Hangeul numerals and Hangeul syllables) or Chinese systems of the same usage with different scales. In each of those pairs some text does stand for two different numbers. All pairs of systems that have any text in common are known; every other pair can be told apart from any single label. With to_nominal the same pairs are the only ambiguous ones, except that the decimal fallback for a number of two or more digits (up to 32) is also the hexadecimal text of a greater number.", "quantifier": "all pairs of named systems and option settings, all values of all integer types, all builds", "why_tests_cant": "A confusion is a coincidence of two of up to 2^128 texts in one of some 3000 pairs of systems; its absence cannot be sampled.", "anchors": ["src/digital.rs: impl_digit_set", "src/additive.rs: AdditiveSet", "src/chinese.rs: format_chinese", "src/additive.rs: RomanUpper", "src/additive.rs: RomanLower", "src/enumerated.rs: impl_enum_set", "src/hebrew.rs: Hebrew", "src/ethiopic.rs: Ethiopic", "src/lib.rs: NominalSystem::try_format_nominal"]}
{"id": "C85", "title": "When a user's own labels are told apart", "statement": "No two numbers of an integer type get the same label from a digit collection exactly if no two of its symbols (as far as the type reaches) are the same, with or without zero digit, counting from 0 or 1; likewise for an enumerated set. An additive set with a symbol for 1, none of whose symbols is empty or the beginning of another, gives no two numbers, 0 included, the same label; neither does one, even if symbols begin others, whose symbols each sort after the label of the number before their value. Without a symbol for 1 there are always two numbers with the same label, whatever the symbols, unless the table has a symbol for every number of the type from 2 on.", "quantifier": "every user-defined collection that is not fixed (with two symbols or more if it has a zero digit), every set, every table, every pair of values of every integer type; for one_based() types that can count the symbols; the converse for sets and tables in builds with alloc", "why_tests_cant": "Pairs of values of every type for every possible table; the tests use the built-in tables only.", "anchors": ["src/digital.rs: try_format_nominal", "src/digital.rs: DigitSet::new", "src/enumerated.rs: EnumeratedSet", "src/additive.rs: AdditiveSet::new", "src/additive.rs: try_format_nominal"]}
{"id": "C86", "title": "User-defined systems in builds without alloc", "statement": "Compare a build without the alloc feature with one that has it. A digit collection, with all its fallbacks, has the same outcome, except that OutOfMemory(n) replaces a text of more than 62 bytes; and where formatting never ends with alloc (a lone zero digit, a number other than 0) it ends in OutOfMemory(n). An additive set behaves alike for every number but 0; its symbol for 0, if longer than 62 bytes, makes the build without alloc panic. So does every symbol of an enumerated set longer than 62 bytes: the result is a panic, never OutOfMemory. All other outcomes, errors included, are the same.", "quantifier": "every user-defined collection, set or table, every value of every integer type, every pointer width", "why_tests_cant": "Needs two builds compared on every table and value; the tests run with one feature set and the built-in tables.", "anchors": ["src/nominalstring.rs: try_push_front", "src/nominalstring.rs: From<&str> for NominalString", "src/digital.rs: try_format_nominal", "src/additive.rs: try_format_nominal", "src/enumerated.rs: try_format_nominal"]}
{"id": "C87", "title": "Labels put together", "statement": "Outline numbers such as 2.b.IV: give every depth a named system of its own, write each number with to_nominal and join the labels with a separator. If the separator is an ASCII character other than a letter or digit (and not the space where ArmenianUpper is used), the joined text determines the numbers and how many there are; two outline numbers built by pushing separator and labels into a NominalString are == exactly if their numbers are the same. The loop that pushes them yields exactly the joined text, inline up to 62 bytes and on the heap beyond (OutOfMemoryError without alloc), and never panics. In tables: two labels of a system printed with any width, alignment and such a fill character (the space included), and no precision, look alike only for the same number.", "quantifier": "every assignment of named systems to depths, every list of values, every pair of integer types and builds, every separator, width, alignment and fill as described", "why_tests_cant": "Quantifies over all lists of numbers and all combinations of systems; the tests format single numbers.", "anchors": ["src/lib.rs: to_nominal", "src/lib.rs: into_decimal", "src/nominalstring.rs: try_push", "src/nominalstring.rs: try_push_str", "src/nominalstring.rs: Display for NominalString", "src/nominalstring.rs: PartialEq for NominalString"]}
{"id": "C88", "title": "ASCII case of labels", "statement": "make_ascii_lowercase and make_ascii_uppercase, called on a NominalString through DerefMut, replace each character of any string by its ASCII lower or upper case and change neither the other characters nor is_inline. On a label from to_nominal the result is == to the label of the other system of the pair (LetterUpper and LetterLower, HexUpper and HexLower, RomanUpper and RomanLower) and has the same is_inline; for every other named system the label is unchanged (Greek, Armenian and so on are not ASCII). Decimal fallbacks and builds without alloc included. Comparing labels with eq_ignore_ascii_case, within a system or across such a pair, answers true exactly for the same number.", "quantifier": "every string reachable through the API, every named system, every value of every integer type, every build and pointer width", "why_tests_cant": "Quantifies over all reachable strings, all labels and all pairs of numbers; the tests never edit a string in place.", "anchors": ["src/nominalstring.rs: DerefMut for NominalString", "src/nominalstring.rs: Deref for NominalString", "src/lib.rs: to_nominal", "src/digital.rs: LetterUpper", "src/digital.rs: HexUpper", "src/additive.rs: RomanUpper"]}
{"id": "C89", "title": "Builds with and without overflow checks agree", "statement": "Turning the overflow checks of the Cargo profile on or off (dev and release builds) changes nothing: the same NominalStrings can be made, every sequence of operations on one of them has the same outcomes step by step, and try_to_nominal and to_nominal give the same string, error or panic for every named system (boxed or not), every digit collection with constant answers and any fallbacks, every additive set and every enumerated set. Wherever the code subtracts or adds without a check of its own, the operands never leave the range of their type. The only exceptions are collections that contradict themselves between calls (C53) and a Chain longer than usize::MAX (C54).", "quantifier": "every sequence of operations on every reachable string, every named system, every user-defined digit collection, additive set and enumerated set, every value of every integer type, with and without alloc, every pointer width", "why_tests_cant": "Tests run in one profile; the claim compares two builds on all inputs and all user-defined systems.", "anchors": ["src/nominalstring.rs: push", "src/nominalstring.rs: push_front", "src/digital.rs: try_format_nominal", "src/additive.rs: try_format_nominal", "src/hebrew.rs: try_format_nominal", "src/enumerated.rs: try_format_nominal"]}
{"id": "C90", "title": "The standard library's parsers never misread a label", "statement": "Parsing a label with str::parse into any unsigned integer type finds the number the label was made from, or overflows if the type is too small, when the system is Decimal or to_nominal fell back to decimal; every other label is rejected for an invalid digit, also those in other scripts' decimal digits. Hexadecimal labels of either case read back with from_str_radix(_, 16). So, hexadecimal apart, a number found by parse is always the right one.", "quantifier": "every named system, every value of every integer type, every target integer type, with and without alloc, every pointer width", "why_tests_cant": "All values of 128-bit types in every system and every target type; a test can only sample them, and the rejecting half is about the absence of digits in all texts.", "anchors": ["src/lib.rs: to_nominal", "src/digital.rs: Decimal", "src/digital.rs: HexLower", "src/digital.rs: HexUpper", "src/nominalstring.rs: Deref for NominalString"]}
{"id": "C91", "title": "Errors printed with any flags", "statement": "Whatever a format string asks for - fill character, alignment, width, precision, +, #, 0, x? or X? - Debug shows the name of the error, never filled up, and in brackets the number: sign, 0x prefix and digits, with zeros between prefix and digits for the flag 0 and otherwise fill characters around the whole, just enough to reach the width; with # the number has a line of its own. Different errors never print alike, unless the fill character is itself a digit of the base and the flag 0 is absent.", "quantifier": "all errors, all numbers, all combinations of format options", "why_tests_cant": "Infinitely many numbers and format strings; the claim about collisions compares all pairs.", "anchors": ["src/lib.rs: Error"]}
{"id": "C92", "title": "Debug output identifies the string", "statement": "Between the quotes Debug prints a Rust string literal, on one line, that stands for exactly the text of the NominalString. Two strings that print alike under {:?} or {:#?} have the same text in the same storage, even if two programs with different Unicode tables printed them. Two results of try_to_nominal that print alike are == (unless the fill character is a digit, C91), so that a failing assert_eq! never shows two equal sides, and a named system's printed answers to two numbers are equal only if the numbers are. With Unicode tables that know their characters, labels of the named systems appear between the quotes of {:?} as they are; only Roman numerals from 4000 on have their overlines spelled out as \\u{305}.", "quantifier": "every string reachable through the API, all Unicode tables (for labels: that know the characters), all format flags, all named systems, integer types and numbers", "why_tests_cant": "All reachable strings, pairs of strings and pairs of results; an escape that is ambiguous shows only on particular texts.", "anchors": ["src/nominalstring.rs: Debug for MaybeInline", "src/nominalstring.rs: derive(Debug)", "src/lib.rs: Error"]}
{"id": "C93", "title": "Systems of the user's own", "statement": "For every implementation of NominalSystem, even if its answers change from call to call: unless it overrides format_nominal, to_nominal asks try_format_nominal exactly once, about the number it was called for, and returns if and only if that call returns. The result is the text returned or, after an error, the number in the error (not the one asked about) in decimal, 0 for NoZeroSymbol, in every build and without the heap; nothing else happens to the program. It panics, or hangs, exactly if try_format_nominal does. Labels for a list of numbers are asked for in the order of the list, one question per label. Any number of Box, Rc and Arc around the system changes nothing except that an overridden format_nominal is not used.", "quantifier": "every implementation of the trait with any state, every nominal and list of nominals, every integer type and build", "why_tests_cant": "All implementations of a public trait and all their states.", "anchors": ["src/lib.rs: NominalSystem::format_nominal", "src/lib.rs: UnwrapOrDecimal", "src/lib.rs: Error::into_decimal", "src/lib.rs: Nominal::to_nominal"]}
{"id": "C94", "title": "to_nominal with a digit collection of the user's own", "statement": "For every DigitCollection, even if its answers change from call to call, with lengths that fit in usize: to_nominal returns the text t and leaves the program in the state w' if and only if a conversation (C67) that leads to w' ends with the text t, or one that leads to w' ends with an error and t is the number asked for in decimal. So the calls made before an error keep their effects, none are made afterwards, and the error is always about the number asked for. to_nominal panics if and only if a conversation whose outcome is a panic takes place or one breaks off at a method that panics; if a method never returns, neither does to_nominal.", "quantifier": "every implementation of DigitCollection with any state and any chain of defaults, every nominal that fits the type, every integer type and build", "why_tests_cant": "All implementations of a public trait and all their states.", "anchors": ["src/digital.rs: NominalSystem for D: DigitCollection, try_format_nominal", "src/digital.rs: DigitCollection", "src/lib.rs: NominalSystem::format_nominal", "src/lib.rs: Error::into_decimal"]}
{"id": "C95", "title": "Decorating a system", "statement": "A NominalSystem of the user's own that asks another one and then adds to its text with try_push, try_push_str or try_push_front, each with with_nominal(n)?, in any number and order and depending on the number, behaves as if the whole text had been written in one go: inline up to 62 bytes, on the heap beyond, and without alloc OutOfMemory about n exactly if the whole text has more than 62 bytes. Errors and panics of the inner system come out unchanged, and decorating twice is decorating once. to_nominal of a decorated named system gives the decorated text, or the bare decimal numeral without the decoration. With any prefix and suffix, no two numbers get the same label, across integer types and builds; the one exception are Decimal and the two hexadecimal systems without alloc, when prefix and suffix are ASCII digits only, 24 or more of them.", "quantifier": "every inner system that builds its strings with the public API (every named one does), every list of additions, every nominal that fits the type, every integer type and build", "why_tests_cant": "All combinations of systems, decorations and numbers.", "anchors": ["src/lib.rs: WithNominal::with_nominal", "src/lib.rs: NominalSystem::format_nominal", "src/nominalstring.rs: NominalString::try_push", "src/nominalstring.rs: NominalString::try_push_str", "src/nominalstring.rs: NominalString::try_push_front"]}
{"id": "C96", "title": "Several systems in turn", "statement": "A NominalSystem of the user's own that asks several systems in turn (try_format_nominal(n).or_else(...)) answers with the first of them that does not fail, and with the error of the last if all fail. For named systems to_nominal is the text of the first one that can write n in this build, or n in decimal if none can. If no character belongs to two of the systems, no two numbers get the same label, across integer types and builds, the decimal fallback included; without that condition two numbers can share a label.", "quantifier": "every non-empty list of systems (arbitrary ones for the order, named ones for the texts), every nominal that fits the type, every integer type and build", "why_tests_cant": "All lists of systems and all numbers.", "anchors": ["src/lib.rs: NominalSystem::try_format_nominal", "src/lib.rs: NominalSystem::format_nominal", "src/lib.rs: Error::into_decimal"]}
{"id": "C97", "title": "Which numbers the systems refuse", "statement": "For every named system: NoZeroSymbol is returned exactly for 0 in the two CJK series, DoubleCircledNumber, the two Armenian systems, Georgian, Hebrew and Ethiopic; OutOfBounds(n) exactly for n > 50 in CircledNumber, n > 10 in DoubleCircledNumber and n >= 10^15 in the short Chinese scale; OutOfMemory(n) exactly without alloc for the numbers whose text a build with alloc puts on the heap; nothing else goes wrong. Every number below the first failure given by a table is written and the first failure is refused; so try_to_nominal(n).unwrap() is safe for all values of an integer type exactly if that number lies beyond the type.", "quantifier": "every named system, every integer type and build, every nominal that fits", "why_tests_cant": "All numbers of all types; the absence of failures below a bound.", "anchors": ["src/lib.rs: Nominal::try_to_nominal", "src/lib.rs: Error", "src/digital.rs: NominalSystem for D: DigitCollection, try_format_nominal", "src/enumerated.rs: EnumeratedSet", "src/additive.rs: AdditiveSet", "src/hebrew.rs: Hebrew", "src/ethiopic.rs: Ethiopic", "src/chinese.rs: format_chinese"]}
{"id": "C98", "title": "What a push costs", "statement": "A try_push_front on a new_reverse() string and a try_push on a new() string write only the cells of the new character, at most four, however long the text is, until the text leaves the stack; try_push_str on a new() string writes as many cells as it has bytes. At the other end a push writes as many cells as the whole new text has bytes. A push that moves the text to the heap or fails writes no cell of the buffer. So pushes at the free end of the buffer write each byte of the text once in all, and k one-byte characters pushed at the other end of an empty string cost k (k + 1) / 2 cells. Formatting a number whose text stays in the buffer writes every byte of the text exactly once, in all named systems but the Chinese ones and in user-defined digit collections with their fallbacks, additive sets and enumerated sets; whatever the outcome, they write at most 62 cells. The Chinese systems, which put a text together from strings, write at most 2, 10, 6 and 5 times as many cells as the text has bytes with the short, myriad, mid and long scale.", "quantifier": "every string obtained through the API, every push, every sequence of pushes that fits; every system, integer type, build and nominal", "why_tests_cant": "All strings and histories; a test cannot observe which cells are written.", "anchors": ["src/nominalstring.rs: new_reverse", "src/nominalstring.rs: try_push_front", "src/nominalstring.rs: try_push", "src/nominalstring.rs: try_push_str", "src/nominalstring.rs: InlineString", "src/digital.rs: NominalSystem for D: DigitCollection, try_format_nominal", "src/ethiopic.rs: Ethiopic", "src/chinese.rs: format_chinese"]}
{"id": "C99", "title": "The contract of as_usize", "statement": "UnsignedInteger::as_usize truncates and is documented to be invoked only on values within the range of usize. The crate keeps that contract: whatever number is formatted, also one beyond usize, with a named system or with any implementation of DigitCollection, even one whose answers change from call to call, as_usize is never invoked on a value that usize cannot hold. So an as_usize that panics, never returns or is undefined behaviour on such values would give the same results.", "quantifier": "every named system, every implementation of DigitCollection with its chain of fallbacks, every integer type, build and nominal", "why_tests_cant": "All numbers and all user-written collections; on a 64-bit machine only u128 values could show a truncation, and a truncated index may still be a valid one.", "anchors": ["src/lib.rs: as_usize", "src/digital.rs: try_format_nominal", "src/chinese.rs: format_chinese_inner", "src/chinese.rs: format_short_rank", "src/ethiopic.rs: format_ethiopic"]}
{"id": "C100", "title": "Which labels sort like their numbers", "statement": "Sorting labels as strings (Ord of NominalString, or of &str) sorts the numbers for exactly three of the named systems: ArmenianUpper, ArmenianLower and DoubleCircledNumber; CircledNumber does so from 1 on, but its zero sorts after 20. In every other named system, already among the values of u8, some greater number has a smaller label. With the decimal fallback of to_nominal only the two Armenian systems remain, and on a build without alloc, where labels of more than 62 bytes become decimal numerals, only for integers of at most 16 bits. In general the labels of an AdditiveSet with a symbol for one sort like their numbers, whatever their lengths, if of two symbols the one of greater value begins with the greater character, the zero symbol included; for one-character symbols that condition is also necessary. For symbols of any lengths, with a non-empty symbol for one and with alloc, the labels sort if and only if every symbol sorts after the label of the number before its value (without alloc too, as far as labels can be stored, if that holds with alloc). Without a symbol for one, labels of non-zero numbers never run against the numbers, though different numbers may share a label. The labels of a digit collection that is not fixed sort like their numbers only if it has at most one symbol, or so many symbols, in code-point order, that every value of the integer type is written with a single one. Those of an EnumeratedSet do if and only if its symbols, as far as the integer type reaches and the build can store them, are in strictly ascending order.", "quantifier": "every named system, every AdditiveSet, every EnumeratedSet, every unbounded digit collection, every pair of numbers of every pair of integer types and every build", "why_tests_cant": "All pairs of numbers and all tables; pairs in order up to some bound say nothing about labels of other lengths.", "anchors": ["src/additive.rs: AdditiveSet", "src/additive.rs: ArmenianUpper", "src/additive.rs: ArmenianLower", "src/enumerated.rs: CircledNumber", "src/enumerated.rs: DoubleCircledNumber", "src/nominalstring.rs: Ord for NominalString", "src/lib.rs: to_nominal"]}
{"id": "C101", "title": "When the last label is the widest", "statement": "A program that lays out a numbered list may take the width of its last label as the width of all of them exactly if the system is made of digits, letters or a series of symbols: there no label is longer than the label of a greater number, in characters as well as in bytes. In every other named system (Roman, Armenian, Georgian, Japanese, Korean, Hebrew, Ethiopic, Chinese) some label is longer than that of a greater number, already among the values of u8. The same systems are the ones for which it holds with the decimal fallback of to_nominal, counted in characters, with or without alloc. It holds for every digit collection that is not fixed, whatever its symbols. For an AdditiveSet with alloc it holds if and only if no symbol is shorter than the label of the number before its value and, where there is no symbol for one, a zero symbol is empty (with a symbol for one the condition is enough without alloc too); for an EnumeratedSet if and only if its symbols, as far as the integer type reaches and the build can store them, never get shorter along the list.", "quantifier": "every named system, every unbounded digit collection, every AdditiveSet and EnumeratedSet, every pair of numbers of every integer type, every build", "why_tests_cant": "All pairs of numbers; a list that happens to end in a wide label shows nothing.", "anchors": ["src/digital.rs: try_format_nominal", "src/enumerated.rs: EnumeratedSet", "src/additive.rs: AdditiveSet", "src/hebrew.rs: Hebrew", "src/ethiopic.rs: Ethiopic", "src/chinese.rs: format_chinese", "src/lib.rs: to_nominal"]}
{"id": "C102", "title": "Labels written one after another", "statement": "A user who writes labels of one system one after another, without a separator, can read the numbers back - and how many there are - exactly with CircledNumber and DoubleCircledNumber, and with Hebrew as long as the numbers are u8 (beyond, 800 followed by 121 is written like 900 followed by 21). In every other named system two different pairs of numbers give the same text, already among the values of u8. With the decimal fallback of to_nominal it is exactly CircledNumber and Hebrew with u8. If the system changes from depth to depth and no label of a depth begins with a character that the depth before uses (as in 12b3), no separator is needed, whatever the integer type and build.", "quantifier": "every named system, every sequence of systems, every two sequences of numbers of every integer type, every build", "why_tests_cant": "All pairs of sequences of numbers, of any length.", "anchors": ["src/lib.rs: try_to_nominal", "src/lib.rs: to_nominal", "src/hebrew.rs: Hebrew", "src/enumerated.rs: CircledNumber", "src/enumerated.rs: DoubleCircledNumber", "src/digital.rs: try_format_nominal", "src/additive.rs", "src/chinese.rs"]}
{"id": "C103", "title": "Labels in UTF-16", "statement": "A user who hands labels to JavaScript, Java or Windows can rely on one UTF-16 code unit per character: every label to_nominal writes with a named system has no surrogates, its length there is its number of characters, cutting it anywhere leaves whole characters, and it takes at most three bytes of UTF-8 per unit. Labels - also of different systems, integer types and builds - sort there exactly as Ord for NominalString sorts them. For strings of the user's own the two orders agree as long as characters that need a surrogate pair and characters from U+E000 to U+FFFF do not occur together, and differ at every place where one of each is compared.", "quantifier": "every named system, every value of every integer type, every build, every two NominalStrings", "why_tests_cant": "All labels and all pairs of strings.", "anchors": ["src/lib.rs: to_nominal", "src/nominalstring.rs: Ord for NominalString", "src/digital.rs", "src/enumerated.rs", "src/additive.rs", "src/hebrew.rs", "src/ethiopic.rs", "src/chinese.rs"]}
{"id": "C104", "title": "The same system in other signs", "statement": "Replacing the signs of a system replaces the signs of its labels and nothing else. A wrapper around any digit collection of the user's own (stateful, panicking, with fallbacks) that replaces the digits one for one makes formatting end alike: with the text in which every character is replaced, with the same error, with a panic or not at all, and in the same state. AdditiveSet and EnumeratedSet behave likewise when characters are replaced by whole texts. On builds without alloc this holds for replacements that keep the sizes in bytes. Between two of the library's named systems one replacement of characters translates the labels of all numbers exactly if they are of one family: the nineteen decimal scripts; upper and lower case of letters, Greek, hexadecimals, Roman numerals; hiragana and katakana of the same order; Hangeul consonants and syllables; the formal and the informal additive numerals of Japan and Korea; Chinese numerals of the same scale and formality. The labels correspond also across builds and integer types. The Armenian cases are no such pair, because of a space after the capital letter one, but are translated by replacing the space by nothing.", "quantifier": "every collection, table, enumeration and replacement, every pair of named systems, every value of every integer type, every build", "why_tests_cant": "All user collections, tables and replacements, and all numbers for each pair of named systems.", "anchors": ["src/digital.rs: try_format_nominal", "src/additive.rs: AdditiveSet", "src/enumerated.rs: EnumeratedSet", "src/chinese.rs: ChineseCharacterOptions", "src/lib.rs: try_to_nominal"]}
{"id": "C105", "title": "Looking for labels in labels", "statement": "Looking for one label in another with starts_with, ends_with, contains and find gives the same answer on the bytes of the UTF-8 text as on its characters, and every position found is a character boundary. What is found is a matter of arithmetic on the numbers: among numerals with a zero digit one begins with another if that is the number without its last digits, ends with it if that is its remainder, and contains it if that is a remainder of such a quotient; among the alphabets and one-based systems likewise, counting from one with the matching division; also for labels of different integer types and builds. Among the named systems only the circled and double circled numbers have labels of which none begins with another, or ends with another; with to_nominal's decimal fallback only the circled numbers of u8 have no label beginning with another, and every system has labels ending with others.", "quantifier": "every pair of texts and every pair of numbers of all integer types and builds, every system of distinct digits, every named system", "why_tests_cant": "All pairs of labels of all sizes for each system; a test looks for a handful of labels.", "anchors": ["src/nominalstring.rs: Deref", "src/digital.rs: try_format_nominal", "src/lib.rs: try_to_nominal, to_nominal"]}
{"id": "C106", "title": "Adding symbols to a system", "statement": "What happens to labels already given out when symbols are added to a system of the user's own. Adding digits at the end of a collection that is not fixed (and has at least two digits if one of them is a zero), in particular with and(), that is Chain, keeps the labels of exactly the numbers that were written with one symbol (below the old number of digits, or up to it when counting from 1 with fewer symbols than the integer type has values); with distinct symbols every other number gets a different label, in every integer type and build. The same goes for digits taken away with Restrict. In a fixed collection counting from 1 only the numbers of the new symbols change: they get these symbols, and all numbers beyond are written with the fallback as before. A label of an AdditiveSet depends only on the symbols whose values do not exceed the number: inserting or changing symbols of greater values changes neither the label nor the error, and after a symbol is put on top the labels from its value on begin with it. Symbols added at the end of an EnumeratedSet change exactly the results of their own numbers, which were out of bounds before.", "quantifier": "every digit collection that is not fixed, every fixed one without zero digit counting from 1, every pair of additive tables, every EnumeratedSet, all added symbols, every number of every integer type, every build", "why_tests_cant": "All collections, all additions and all numbers; a test adds one symbol to one set and looks at a few labels.", "anchors": ["src/digital.rs: try_format_nominal", "src/digital.rs: Chain", "src/digital.rs: Restrict", "src/additive.rs: AdditiveSet", "src/enumerated.rs: EnumeratedSet"]}
{"id": "C107", "title": "The labels determine the collection", "statement": "Two digit collections of the same kind (with a zero digit and at least two digits, without one counting from 0, without one counting from 1) that are not fixed write all numbers of an integer type alike if and only if they have the same symbols in the same order, as far as the type reaches; symbols may be repeated, and nothing else about the collections matters. Counting from 0 it is enough, and necessary in general, to compare the numbers up to the number of symbols of the smaller collection, and counting from 1 (with fewer symbols than the type has values) one more. Collections of different kinds write all numbers alike only if each of them has a symbol for every value of the type (for a zero digit against none: if its first two digits differ). With alloc two AdditiveSets with the same greatest value that agree on the numbers up to it agree on all numbers, though their tables may differ. With alloc two EnumeratedSets give the same results if and only if both or neither have a zero symbol and their symbols agree as far as the type reaches.", "quantifier": "every pair of digit collections that are not fixed, every pair of AdditiveSets and EnumeratedSets, every integer type, every build", "why_tests_cant": "All pairs of collections, and all numbers in each direction; equal labels on the numbers tried do not make two systems equal.", "anchors": ["src/digital.rs: try_format_nominal", "src/digital.rs: OneBased", "src/enumerated.rs: EnumeratedSet"]}
