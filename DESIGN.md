# Formal model of khonsulabs/nominals in Lean 4

## Layout

    lean/Verif/Model/    the code, function by function (every definition cites file:lines)
    lean/Verif/Spec/     small specifications, written without looking at the code's algorithm
    lean/Verif/Proofs/   helper lemmas (refinement, loop invariants)
    lean/Verif/Props/    the property theorems (C01, C02, ...) with non-vacuity examples beside them
    lean/Verif/Tests/    replays of the repository's own unit tests and preview tables (tests, not proofs)
    tools/               generators: properties.jsonl, MANIFEST.json, model tables, replay tests, the axiom list below
    seeded/LOG.jsonl     wrong programs tried against the theorems

## Modelling decisions

* **Integers.** `Nominal` is sealed, so the nominal type is one of u8, u16, u32, u64, u128, usize.
  A value is a `Nat` together with the hypothesis that it fits the type (`n < 2^bits`). Subtraction that
  would underflow, remainder/division by zero and out-of-range indexing are explicit `panic` outcomes;
  `as usize` truncates modulo the pointer width; `TryFrom` fails when the value does not fit. Pointer
  width is 16, 32 or 64 bits.
* **Outcomes.** `Res ε α` = `ok | err | panic | ub | timeout`. `ub` is undefined behaviour (reading an
  uninitialised byte, invalid UTF-8 behind `from_utf8_unchecked`, raw-pointer access outside the
  buffer). `timeout` means that the fuel of a loop ran out: loops take fuel, and theorems show either that
  the result is not `timeout` or (non-termination) that it is `timeout` for every amount of fuel.
* **NominalString** is modelled at byte level: 62 cells `Option UInt8` (`none` = `MaybeUninit::uninit`),
  the `length: u8` field with the reverse flag in bit 7, `copy_within`, zip-writes, raw copies. A Rust
  `String` on the heap is a `List Char`; allocation always succeeds (global allocator failure aborts the
  process in Rust and is outside the model). The `alloc` cargo feature is a Boolean of the configuration.
  UTF-8 encoding is Lean core's `String.utf8EncodeChar`; the decoder is our own strict one, and C03 needs no
  more than that it inverts the encoder.
* **DerefMut.** Safe code that holds a `&mut str` can replace the text by any valid text of the same byte
  length. An edit is therefore any length-preserving function on texts (`Op.edit`).
* **Formatters** run on that byte-level string, not on an idealised one. One refinement layer
  (`Proofs/StringRefine.lean`) then transfers every result to plain lists of characters.
* **DigitCollection** is an open trait and is modelled twice.
  In `Model/Digital.lean` a collection is a record of its method results (pure functions) and a
  stream of fallbacks (level k+1 is the `Fallback` type of level k); nested `try_format_nominal` calls on
  fallbacks take a recursion-depth budget. In `Model/DigitalDyn.lean` every method call is an event that reads
  and changes an arbitrary program state, may panic or may not return, in the order in which the source makes the
  calls; `C53_constant` proves that the first model is the special case of constant answers.
* **&'static str** symbols are `List Char`.
* **Overflow checks.** The configuration has a third field for the profile's `overflow-checks`; every theorem about all
  configurations speaks about builds with and without. Subtractions of the formatters and of the inline buffer and the
  `u8` additions of the pushes panic or wrap around accordingly (`subT`, `addU8`). The builds differ in two places only:
  the addition in `Chain::len`, and `remaining -= one` when a collection contradicts itself about its zero digit (C53, C54);
  that all else agrees is C89. Index arithmetic of src/chinese.rs is on natural numbers: its one possible underflow, `rank - 1`
  at rank 0, panics in both builds (without checks, on the index `usize::MAX`).

## Trusted base

* Lean 4.33 kernel. No Mathlib module is imported. Axioms at most `propext`, `Classical.choice`, `Quot.sound`; the
  list per theorem is at the end.
* The reading of Rust semantics described above (operator precedence, slice panics, `zip`,
  `copy_within`, `char::encode_utf8`, integer conversions).
* Transcription of the tables: generated by `tools/gentables.py` from the Rust text and replayed
  against the repository's preview tables (real program output) in `Verif/Tests`. C51 compares every table
  with an independent description (Unicode blocks, alphabet order, place value).

## What is modelled

| file | modelled | not modelled |
|------|----------|--------------|
| src/nominalstring.rs | all constructors, pushes, conversions, `Deref`, `DerefMut`, `Eq`, `Ord`, comparisons with `str`/`String`, `InlineString`, `MaybeInline`, `Display` and `Debug` with all format options (`core::fmt::Formatter::pad` and `debug_tuple` are modelled after their source; how `Debug for str` escapes one character is a parameter of `NStr.debug`; `Model/Escape.lean` has `char::escape_debug_ext`, with the Unicode tables it asks as parameters), derived `Clone` | the size of the struct |
| src/digital.rs | the blanket `NominalSystem` impl, `DigitSet`, `NoFallback`, `OneBased`, `Chain`, `Restrict`, their derived `Default`, the macro and all generated constants | |
| src/enumerated.rs | all | |
| src/additive.rs | `AdditiveSet`, the `const` ordering check, all constants | |
| src/hebrew.rs, src/ethiopic.rs, src/chinese.rs | all | |
| src/lib.rs | `NominalSystem` (arbitrary implementations, overrides and state included), `Nominal`, `Error`, `UnwrapOrDecimal`, `WithNominal`, the Box/Rc/Arc impls, the derived traits of `Error` | |
| examples/previews.rs | `preview`, `DigitPreview::preview_values` (C76); all tables it wrote are replayed in `Verif/Tests`, blanks included | files, type names, links of the index, grapheme segmentation and Unicode width (a parameter) |

Not modelled anywhere: running time other than loop iterations, calls of `format_chinese_inner` (C69) and cells written by pushes and formatters (C98), allocator failure, threads (the crate has none), the aliasing rules of Rust
beyond initialisedness and bounds, compile-time evaluation as such (a `const` panic is a panic of the model).

## Plan per property

| id | model | proof |
|----|-------|-------|
| C01-C05 | byte-level `NStr` ops over arbitrary op lists | representation invariant `Holds s t`, one-step lemmas per op, induction over the op list |
| C06 | constructors/conversions | direct from `Holds` |
| C07 | eq/cmp on exposed bytes | UTF-8 decode/encode inverse; byte order = code point order |
| C08 | `mutate` on the exposed window | `Holds` preserved; the decoder accepts exactly the encodings of Lean's `String.utf8EncodeChar` |
| C09 C10 C13 C14 C48 | `digitLoop` | loop invariant to `digits`; spec = unique numeral / odometer |
| C11 C12 C18 C19 C49 | adapters as functions on collections | equational; the outcome of a `Restrict` that is too long by splitting the digits at the first missing one (C49) |
| C15 C52 | fallback recursion | case analysis; exact characterisation of divergence |
| C16 C17 | same loop | no-panic invariant; fuel sufficiency and fuel-independent divergence |
| C20 C43 C46 | all systems | corollaries of "result = delivered text" theorems |
| C21-C24 | greedy loop | induction over the table |
| C25 C26 C30 | Roman tables | greedy = place-wise; decoder |
| C27-C29 | other tables | place-wise, sum of values |
| C31-C33 | Hebrew loop | invariant with remaining + letters = n |
| C34 C35 | Ethiopic loop | equality with the CSS algorithm; decoder over base 10^4 |
| C36-C40 | Chinese recursion | token-level spec, reading function, rank induction |
| C41 C42 C44 C45 | lib.rs and enumerated.rs | case analysis; Decimal totality bound |
| C47 C51 | every named system | per formatter `Del` lemma, then comparison with `Spec/Catalogue.lean` |
| C50 C55 | buffer contents | the invariant fixes every cell: text at one end, the rest unwritten |
| C53 C54 | `DigitalDyn` | simulation: whatever the collection answers, the string invariant is kept; log of answers |
| C56 | every named system | corollary of C51 with C13, C26, C29, C31, C35, C37 |
| C57 | every named system | length bounds per script (`Proofs/TextLength.lean`, `Proofs/ChineseLength.lean`) |
| C58 C59 | `NStr.cmp` with the digit loop | shortlex order of numerals against code-point order of texts (`Props/Sorting.lean`) |
| C60 C61 C62 | user-defined systems | from the exact characterisations C09-C11, C21-C23, C45 (`Props/Custom.lean`); C61 for chains of fallbacks from C73 (`Props/ChainTypes.lean`) |
| C63 | scales of Chinese numerals | the token lists agree while the units of both scales agree; from the first differing unit on the largest unit written differs (`Props/Scales.lean`) |
| C64 | Roman | from C25: every decimal place is checked for all ten digits, places meet without a repeated sign; above, the copies of M̅ (`Props/Shape.lean`) |
| C65 | all named systems | from C51 and the readers (the empty text reads as 0) (`Props/Shape.lean`) |
| C66 | all named systems | membership by induction over the texts of C51; each character is exhibited in a text (`Props/Repertoire.lean`) |
| C67 | `DigitalDyn` | conversations as an inductive relation (`Spec/Protocol.lean`); both directions by induction over rounds and fuel (`Proofs/Protocol.lean`); conversations broken off by a method that panics or hangs, where a panic is traced back to its cause by completing the conversation (`Proofs/Silence.lean`) |
| C68 | `Additive`, `Hebrew`, `Ethiopic` | small regular expressions (`Spec/Language.lean`); digit by digit for the additive systems and Hebrew, induction over the ten-thousand signs for Ethiopic (`Proofs/Language.lean`) |
| C69 | loops of `Digital`, `Additive`, `Ethiopic` with an explicit budget | one-turn lemma, then induction over the budget: a run cut short has written one character per turn (`Props/Work.lean`). Chinese: twins of the functions of `src/chinese.rs` with a log of the calls of `format_chinese_inner` (`Model/ChineseTrace.lean`), proved equal to them without the log; the log is the list of non-zero four-digit groups, by induction over the ranks (`Props/ChineseTrace.lean`) |
| C70 | `display`, `debug`, `clone` over `core::fmt` pieces (`Model/Display.lean`) | layout specification with a uniqueness lemma; text from the representation invariant, storage from C51 |
| C71 | as C36; second description of the numerals in `Spec/ChineseDigits.lean` | induction over places and over groups of four digits; the three grouped scales through one `GroupShape` (`Proofs/ChineseDigits.lean`) |
| C72 | the tables `maxChars` and `widest` in `Spec/Width.lean`: literal numbers for the five widths | additive systems: the length is a sum over the digits, its maximum up to a bound computed place by place (`bestUpTo`) and proved; Chinese by C71's one pass; Ethiopic by groups; digits by numeral length (`Proofs/TextWidth.lean`) |
| C73 | the outcome of a chain as a relation (`Writes`, `Settles` in `Spec/Collections.lean`) over the symbols and flags of each level | both directions: every described outcome is the result of a run (induction on the level that settles the number, the loop lemmas for each class of collection), and a run that ends has only one outcome (C52: budgets do not matter) |
| C74 | a grammar over tokens (`Lead`, `Grouped` in `Spec/ChineseGrammar.lean`), no numbers in it | generated texts = texts of numbers, both directions: induction on the derivation and on the number of large units (`Proofs/ChineseGrammar.lean`) |
| C75 | `to_nominal` on the catalogue; no new model code | the repertoires (C66) contain no ASCII digit except for Decimal and hexadecimal, which never fail (C57); then C56 and injectivity of decimal numerals |
| C76 | `previewValues`, `preview` (examples/previews.rs), text width as a parameter | loop invariants; `Formatter::pad` from C70; lengths from C48 |
| C77 | the formatter over arbitrary collections (`dynTryFormat`, as C53); a collection that keeps a record and checks each call (Spec/Contract) | simulation of the guarded run by the unguarded one, by induction on fuel and depth, with the record as invariant |
| C78 | the algorithms of CSS Counter Styles 3 and its predefined styles, transcribed without access to the text of the standard (Spec/Css) | loops equal to `digs`, `bij`, `picks` by induction; C51; Chinese by cases on which of four digits are zero (C71) |
| C79 | derived traits of `Error`, `core`'s `PartialEq` and `Debug` of `Result` (Model/Results) | C07, C42, C51, C56, C70 |
| C80 | all formatters of the model | invariant `Reachable` along every loop; C01-C05's refinement from there |
| C81 | digit collections as for C09-C11 | odometer step on digit indices, transported to characters; uniqueness by induction on the number |
| C82 | all named systems | C51; one representative per class told apart by five small numbers (whole finite list), classes refined with C63 and the tokens below 10^4 |
| C83 | `Default` of `NoFallback`, `Chain`, `Restrict` and user types (Model/Defaults) | structural induction over fallback types; C73, C49 |
| C84 | all named systems | C51, C66: one character of a common text fixes a zone of characters and with it the possible systems (whole finite tables); within the CJK zone texts are read back (C37 and a reader of tens, hundreds and thousands) |
| C85 | user-built digit collections, enumerated and additive sets | C09-C13, C45, C21-C24; texts over a prefix-free table are cut up in one way only (induction) |
| C86 | user-built digit collections, enumerated and additive sets, with and without alloc | C73 for both builds, case by case; C21-C23 and C45 |
| C87 | the loop of a user's program over `to_nominal`, `try_push`, `try_push_str` (`Spec/Outline.lean`) | refinement of the pushes; separators are outside every repertoire (C66), labels are not empty (C65) and distinct (C75); columns by C70, for ArmenianUpper through the letter sum of C29 |
| C88 | `make_ascii_lowercase`, `make_ascii_uppercase`, `eq_ignore_ascii_case` of the standard library on the exposed bytes (`Spec/AsciiCase.lean`) | byte edit = character edit by cases on the UTF-8 length; then the answers of C51 are compared pair by pair, with the repertoires of C66 for the systems without ASCII letters, and C75 for distinctness |
| C89 | `Cfg.checks`: `subT` and `addU8` panic or wrap around | relational proof over the two builds (`Proofs/Profiles.lean`): operations on reachable strings agree because the checked one never panics (C03); each formatter subtracts only what its own test allows |
| C90 | specification of `from_str_radix` on bytes (`Spec/Parse.lean`) applied to the bytes behind `Deref` | induction over the digits with the overflow checks; other systems start with a byte that is no digit and no sign (C66, C75) |
| C91 | `derive(Debug)` of `Error` with `Formatter::pad_integral` for all flags | a relational layout specification with existence and uniqueness; collisions excluded by filtering the figures out of the output and reading them with the parser of C90, to which leading zeros make no difference |
| C92 | `char::escape_debug_ext` as `Debug for str` calls it, its two Unicode tables as parameters | a reader of string literals inverts the escapes by induction; indentation and names are injective; overlines occur in Roman numerals exactly from 4000 on |
| C93 | `NominalSystem` with state (Model/LibDyn) | cases on the one call, `into_decimal` by C41; a log of the questions is added to the state, and lists are done by induction |
| C94 | `try_format_nominal` of digit collections with the state kept on errors (Model/OwnColl) | `C94_same_code`: equal to the model of C67 otherwise; induction on sessions for the state after an error; then the theorems of C67 and C41 |
| C95 | a decorating system written with the public API (Spec/Decorated) over the models of `NominalString` and of `format_nominal` | induction on the additions: the text only grows, so the last length decides; then C41, C51, C56, C65, C66 and C80 |
| C96 | a system asking others in turn (Spec/Turns) over the models of the named systems | induction on the list; then C41, C42, C51, C56, C65, C66 and C75 |
| C97 | all named systems | case analysis of the catalogue (C51), thresholds from C57 |
| C98 | twins of the pushes and of the formatters with a log of the cells written (`Model/Writes.lean`, `Model/WritesFormat.lean`) | proved equal to the functions without the log, and cells outside the log of a push proved unchanged; the log of a push computed from the invariant of C55; the formatters by an invariant that relates the number of cells written to the length of the text (`Proofs/WritesCost.lean`). The twin of a formatter is written by hand beside it; its results, direction of the buffer included, are proved to be the same |
| C99 | twins of the formatters with a cast that does something else beyond `usize` (`Model/Casts.lean`) | proved equal to the formatters: remainders are below a length, a number is below a length beyond its type, and the scales of `src/chinese.rs` bound what reaches `format_chinese_inner` |
| C100 | `Rising` tables (`Spec/LabelOrder.lean`); `NStr.cmp` on the labels of `AdditiveSet.tryFormat` and of the named systems | induction along the greedy expansions of the two numbers; exactly (`Props/AdditiveOrder.lean`): from n to n + 1 either a new symbol comes in or both labels begin with the same symbol; for the other systems a pair of values of `u8` per system, computed from the catalogue (C51) |
| C101 | lengths of the texts behind `try_to_nominal` and `to_nominal`; `growingSystems` (`Spec/Widest.lean`) | the number of digits grows with the number; additive and enumerated sets exactly, step by step as in C100; for the other systems a pair of values of `u8` per system, computed from the catalogue (C51) |
| C102 | concatenation of the texts behind `try_to_nominal` (`OwnLabels`, `Spec/Unseparated.lean`) and `to_nominal` (`Labels`) | the test of Sardinas and Patterson, proved sound, on the labels of all values of `u8`; for the other systems two pairs of numbers each, from the catalogue (C51); changing systems by the repertoires (C66) and injectivity (C75) |
| C103 | UTF-16 encoding written out (`units`, `utf16`, `Spec/Utf16.lean`) of the text of `to_nominal` | the repertoires (C66) lie below the surrogates; induction on the two texts for the order |
| C104 | two runs of the modelled formatting code, one with `relabelled` digits, table or enumeration (`Spec/Relabel.lean`); the families of named systems as `writing` | simulation of the two runs step by step; families told apart by the lengths of a few labels (C51) |
| C105 | `<+:`, `<:+`, `<:+:` on the characters of labels and on their bytes; `front` (`Spec/Search.lean`) cuts symbols off a number counted from one | bytes: UTF-8 lead and continuation bytes differ; words: value of an appended numeral; named systems: witnesses for each, lengths for the circled ones |
| C106 | two collections over `al` and `al ++ more`, `chain`; two additive tables that agree up to n; enumerated sets `syms` and `syms ++ more` | numbers of one symbol directly; the same digits denote more in a larger base; greedy expansions look at no greater values; list indexing |
| C107 | `view` of `tryFormat` of two collections over `al` and `al'` for all numbers of a type against `al.take (2 ^ bits)`; likewise enumerated sets | the numbers with a one-character label are exactly those with a symbol of their own, which yields length and symbols; back by uniqueness of the numerals |

Every property is expressible in the model and every theorem is proved at full strength; no theorem carries the suffix
`_partial`. Where a natural expectation is false of the code (C19, C22, C27, C30, C50), the property states exactly
when it holds, and an example beside the theorem shows a failure.

## Wrong programs

`seeded/LOG.jsonl` lists edits of the model that a realistic bug would make, tried in scratch copies. To learn about every theorem, not only
about the first module that breaks, the edited module and all that depend on it are put into one file and elaborated with errors
tolerated; a theorem counts as failed if it depends on something that did not elaborate. A failing proof is weaker evidence than a
false statement: an edit may break a proof and leave the statement true (then the note says so where we noticed).
One file is not the same as many modules: names can clash. So the rounds were also run without any edit, once per edited file, and theorems
that fail there are listed under `not_evaluated` and not under `theorems_failed`. This concerns C82 in rounds 8 and 9,
repeated in round 16 with a smaller set of modules, C69_chinese_calls in rounds 9 and 16, whose statement was evaluated on the edited programs
instead (round 17), C98_formatters_log in two edits of round 23 and one C99 theorem in round 24. Where the run without an edit is missing, the entry
says `"unedited_run": false`, and its list may contain theorems that fail for reasons of the single file.

## Findings about the code

Everything here is a theorem or an example in `Verif/Props`, unless marked otherwise.

* F1 `one_based()` has no effect when the collection has more digits than the integer type can count
  (`C11_wide_sets_ignore_one_based`).
* F2 A zero-digit collection with one symbol never finishes with `alloc`, and returns `OutOfMemory` without (C17).
* F3 `OneBased`, `Chain` and `Restrict` forget that a collection is `fixed` and its fallback (C19).
* F4 An `AdditiveSet` without a unit symbol silently drops the remainder (C22).
* F5 ArmenianUpper writes 1 as "Ա " with a trailing space (C27).
* F6 Roman 900,000 is written D̅M̅ and 90,000 is written L̅C̅, so ordinary subtractive reading does not give
  the number back (C30).
* F7 `push_front` on a forward string calls `as_bytes_mut` over bytes that may never have been written, exactly when
  the new character is wider than the text (C50). Whether this is undefined behaviour depends on the rules for
  references to uninitialised integers; no uninitialised byte is ever read (C03).
* F8 Without `alloc`, `From<&str>` panics on more than 62 bytes (C06); `EnumeratedSet` inherits this (C45).
* F9 Box/Rc/Arc of a system bypass an overridden `format_nominal` (C44).
* F10 The documentation of `NominalString` says 47 bytes; the capacity is 62 (reading of the source).
* F11 A `Restrict` longer than its collection panics when a missing digit is needed (C49).
* F12 An empty collection panics with a remainder by zero (C49).
* F13 Additive systems repeat their largest symbol, so the text grows linearly with the number (C28).
* F14 A fixed collection that names itself as `Fallback` recurses forever (C52).
* F15 A fixed one-based collection with a zero digit writes two symbols at n = len (C15).
* F16 A `Chain` whose length overflows `usize` panics with overflow checks and counts modulo 2^width without (C54).
* F17 Without `alloc`, some systems already fail on u16 values: Hebrew from 11,315, the formal East-Asian additive systems
  from 64,111, the informal ones from 65,221 (C57).
* F18 The labels of CjkDecimal, HiraganaIroha, KatakanaIroha, CjkHeavenlyStem and CjkEarthlyBranch do not sort in
  numerical order even when they have equally many characters (C58).
* F19 A one-based collection without zero digit and with 256 or more symbols writes the same number differently as `u8`
  and as a wider type (C61).
* F20 A collection whose `has_zero_digit` answers `false` and then `true` for 0 panics with overflow checks, and without
  them is written as the largest number of the type (C53).
* F21 `len` is asked once more after the last digit; a collection that has then grown beyond the integer type makes the
  call fail with `OutOfBounds` although the text was complete (C67).
* F22 `AdditiveSet::new` accepts empty symbols; formatting `n` then takes `n / value` turns without writing anything, also
  without `alloc` (C69).
* F23 `Display` counts characters: an overlined Roman letter takes two, so columns of numerals from 4000 on do not line up
  on screen (example after C70).
* F24 The preview tables are meant to show the hundreds transition, but for collections without zero digit the last four rows
  are all of two symbols (676 is "za"); for fewer than three symbols numbers are shown twice (C76).
* F25 The documentation of `DigitCollection::zero_based` (digital.rs:645-646) is wrong twice: `true` means counting from 0, not from
  1, and the method is not "only called if `has_zero_digit()` returns false": a fixed collection is asked first (C77).
* F26 `CjkHeavenlyStem` and `CjkEarthlyBranch` do not fall back to `CjkDecimal` for 0, as the CSS styles do (C78); nor are `Hebrew` from 1000
  on and `Hiragana`, `Katakana` (46 symbols; the standard has 48, with ゐ and ゑ) the CSS styles of that name.
* Observation: in the myriad, mid and long scales 零 is omitted before a thousands digit after a skipped group
  (100001000 is 一亿一千); the short scale writes it (C38).

## Axioms per theorem

<!-- axioms -->
* `propext`: `C54_adapters_safe`, `C96_first`.
* `propext`, `Quot.sound`: `C12_one_based_with_zero`, `C15_fixed_out_of_range`, `C15_no_fallback`, `C18_chain`, `C18_restrict`, `C19_adapters_ignore_fallback`, `C24_new`, `C40_options`, `C42_digits`, `C44_boxed`, `C44_named`, `C52_budget_irrelevant`, `C52_fallback_chain_ends`, `C52_self_fallback_diverges`, `C53_constant`, `C53_log_unobserved`, `C53_profiles`, `C54_adapters_constant`, `C54_chain_overflow_panics`, `C54_chain_overflow_wraps`, `C58_unsorted`, `C62_hidden`, `C62_laws`, `C70_clone`, `C73_adapters`, `C81_determined`, `C93_once`, `C93_pointers`, `C93_unchanging`, `C94_same_code`, `C95_nested`, `C99_collections`, `C99_named`.
* `propext`, `Classical.choice`, `Quot.sound`: the remaining 326 theorems.
<!-- end axioms -->

The list was made with `Lean.collectAxioms` on every theorem of `Nominals.Props` named C.. (`lake env lean` on a file importing
`Verif`), and `tools/mkdesign.py`.
