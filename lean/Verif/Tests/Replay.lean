import Verif.Model.Lib

/-!
# Recorded outputs replayed against the model

Generated by `tools/gentests.py`. These are tests of the model (evidence that it is the code's behaviour), not
proofs of any property: the tables of src/previews/*.md, written by examples/previews.rs, and the `assert_eq!`s of
the unit tests and doc tests.
-/

namespace Nominals.Tests

/-- The 64-bit `alloc` build the recorded outputs come from. -/
def cfg64 : Cfg := ⟨true, .w64, true⟩

/-- `n.to_nominal(&system) == expected`. -/
def shows (s : NominalSystem) (T : IntTy) (n : Nat) (expected : List Char) : Bool :=
  match s.format cfg64 T n with
  | .ok r => r.asStr == some expected
  | _ => false

def allShow (s : NominalSystem) (T : IntTy) (l : List (Nat × List Char)) : Bool :=
  l.all fun p => shows s T p.1 p.2

/-- src/previews/Decimal.md -/
example : allShow Named.decimal.system .u32
    [(0, ['0']),
     (1, ['1']),
     (2, ['2']),
     (3, ['3']),
     (4, ['4']),
     (9, ['9']),
     (10, ['1', '0']),
     (11, ['1', '1']),
     (12, ['1', '2']),
     (99, ['9', '9']),
     (100, ['1', '0', '0']),
     (101, ['1', '0', '1']),
     (102, ['1', '0', '2'])] = true := by decide +kernel

/-- src/previews/LetterLower.md -/
example : allShow Named.letterLower.system .u32
    [(0, ['a']),
     (1, ['b']),
     (2, ['c']),
     (3, ['d']),
     (4, ['e']),
     (25, ['z']),
     (26, ['a', 'a']),
     (27, ['a', 'b']),
     (28, ['a', 'c']),
     (675, ['y', 'z']),
     (676, ['z', 'a']),
     (677, ['z', 'b']),
     (678, ['z', 'c'])] = true := by decide +kernel

/-- src/previews/LetterUpper.md -/
example : allShow Named.letterUpper.system .u32
    [(0, ['A']),
     (1, ['B']),
     (2, ['C']),
     (3, ['D']),
     (4, ['E']),
     (25, ['Z']),
     (26, ['A', 'A']),
     (27, ['A', 'B']),
     (28, ['A', 'C']),
     (675, ['Y', 'Z']),
     (676, ['Z', 'A']),
     (677, ['Z', 'B']),
     (678, ['Z', 'C'])] = true := by decide +kernel

/-- src/previews/RomanLower.md -/
example : allShow Named.romanLower.system .u32
    [(1, ['i']),
     (2, ['i', 'i']),
     (3, ['i', 'i', 'i']),
     (4, ['i', 'v']),
     (5, ['v']),
     (6, ['v', 'i']),
     (9, ['i', 'x']),
     (10, ['x']),
     (11, ['x', 'i']),
     (3999, ['m', 'm', 'm', 'c', 'm', 'x', 'c', 'i', 'x']),
     (4000, ['i', '\u0305', 'v', '\u0305']),
     (4001, ['i', '\u0305', 'v', '\u0305', 'i']),
     (999999, ['d', '\u0305', 'm', '\u0305', 'l', '\u0305', 'c', '\u0305', 'i', '\u0305', 'x', '\u0305', 'c', 'm', 'x', 'c', 'i', 'x']),
     (1000000, ['m', '\u0305']),
     (1000001, ['m', '\u0305', 'i'])] = true := by decide +kernel

/-- src/previews/RomanUpper.md -/
example : allShow Named.romanUpper.system .u32
    [(1, ['I']),
     (2, ['I', 'I']),
     (3, ['I', 'I', 'I']),
     (4, ['I', 'V']),
     (5, ['V']),
     (6, ['V', 'I']),
     (9, ['I', 'X']),
     (10, ['X']),
     (11, ['X', 'I']),
     (3999, ['M', 'M', 'M', 'C', 'M', 'X', 'C', 'I', 'X']),
     (4000, ['I', '\u0305', 'V', '\u0305']),
     (4001, ['I', '\u0305', 'V', '\u0305', 'I']),
     (999999, ['D', '\u0305', 'M', '\u0305', 'L', '\u0305', 'C', '\u0305', 'I', '\u0305', 'X', '\u0305', 'C', 'M', 'X', 'C', 'I', 'X']),
     (1000000, ['M', '\u0305']),
     (1000001, ['M', '\u0305', 'I'])] = true := by decide +kernel

/-- src/previews/CircledNumber.md -/
example : allShow Named.circledNumber.system .u32
    [(0, ['\u24ea']),
     (1, ['\u2460']),
     (2, ['\u2461']),
     (3, ['\u2462']),
     (4, ['\u2463']),
     (9, ['\u2468']),
     (10, ['\u2469']),
     (11, ['\u246a']),
     (12, ['\u246b']),
     (48, ['\u32bd']),
     (49, ['\u32be']),
     (50, ['\u32bf'])] = true := by decide +kernel

/-- src/previews/DoubleCircledNumber.md -/
example : allShow Named.doubleCircledNumber.system .u32
    [(1, ['\u24f5']),
     (2, ['\u24f6']),
     (3, ['\u24f7']),
     (4, ['\u24f8']),
     (5, ['\u24f9']),
     (6, ['\u24fa']),
     (7, ['\u24fb']),
     (8, ['\u24fc']),
     (9, ['\u24fd']),
     (10, ['\u24fe'])] = true := by decide +kernel

/-- src/previews/ArmenianLower.md -/
example : allShow Named.armenianLower.system .u32
    [(1, ['\u0561']),
     (2, ['\u0562']),
     (3, ['\u0563']),
     (9, ['\u0569']),
     (10, ['\u056a']),
     (11, ['\u056a', '\u0561']),
     (12, ['\u056a', '\u0562']),
     (99, ['\u0572', '\u0569']),
     (100, ['\u0573']),
     (101, ['\u0573', '\u0561'])] = true := by decide +kernel

/-- src/previews/ArmenianUpper.md -/
example : allShow Named.armenianUpper.system .u32
    [(1, ['\u0531', ' ']),
     (2, ['\u0532']),
     (3, ['\u0533']),
     (9, ['\u0539']),
     (10, ['\u053a']),
     (11, ['\u053a', '\u0531', ' ']),
     (12, ['\u053a', '\u0532']),
     (99, ['\u0542', '\u0539']),
     (100, ['\u0543']),
     (101, ['\u0543', '\u0531', ' '])] = true := by decide +kernel

/-- src/previews/Bengali.md -/
example : allShow Named.bengali.system .u32
    [(0, ['\u09e6']),
     (1, ['\u09e7']),
     (2, ['\u09e8']),
     (3, ['\u09e9']),
     (4, ['\u09ea']),
     (9, ['\u09ef']),
     (10, ['\u09e7', '\u09e6']),
     (11, ['\u09e7', '\u09e7']),
     (12, ['\u09e7', '\u09e8']),
     (99, ['\u09ef', '\u09ef']),
     (100, ['\u09e7', '\u09e6', '\u09e6']),
     (101, ['\u09e7', '\u09e6', '\u09e7']),
     (102, ['\u09e7', '\u09e6', '\u09e8'])] = true := by decide +kernel

/-- src/previews/Cambodian.md -/
example : allShow Named.cambodian.system .u32
    [(0, ['\u17e0']),
     (1, ['\u17e1']),
     (2, ['\u17e2']),
     (3, ['\u17e3']),
     (4, ['\u17e4']),
     (9, ['\u17e9']),
     (10, ['\u17e1', '\u17e0']),
     (11, ['\u17e1', '\u17e1']),
     (12, ['\u17e1', '\u17e2']),
     (99, ['\u17e9', '\u17e9']),
     (100, ['\u17e1', '\u17e0', '\u17e0']),
     (101, ['\u17e1', '\u17e0', '\u17e1']),
     (102, ['\u17e1', '\u17e0', '\u17e2'])] = true := by decide +kernel

/-- src/previews/SimplifiedChineseInformal.md -/
example : allShow (Named.chinese .simplifiedInformal {}).system .u32
    [(0, ['\u96f6']),
     (1, ['\u4e00']),
     (2, ['\u4e8c']),
     (9, ['\u4e5d']),
     (10, ['\u5341']),
     (11, ['\u5341', '\u4e00']),
     (19, ['\u5341', '\u4e5d']),
     (20, ['\u4e8c', '\u5341']),
     (21, ['\u4e8c', '\u5341', '\u4e00']),
     (99, ['\u4e5d', '\u5341', '\u4e5d']),
     (100, ['\u4e00', '\u767e']),
     (101, ['\u4e00', '\u767e', '\u96f6', '\u4e00'])] = true := by decide +kernel

/-- src/previews/TraditionalChineseInformal.md -/
example : allShow (Named.chinese .traditionalInformal {}).system .u32
    [(0, ['\u96f6']),
     (1, ['\u4e00']),
     (2, ['\u4e8c']),
     (9, ['\u4e5d']),
     (10, ['\u5341']),
     (11, ['\u5341', '\u4e00']),
     (19, ['\u5341', '\u4e5d']),
     (20, ['\u4e8c', '\u5341']),
     (21, ['\u4e8c', '\u5341', '\u4e00']),
     (99, ['\u4e5d', '\u5341', '\u4e5d']),
     (100, ['\u4e00', '\u767e']),
     (101, ['\u4e00', '\u767e', '\u96f6', '\u4e00'])] = true := by decide +kernel

/-- src/previews/SimplifiedChineseFormal.md -/
example : allShow (Named.chinese .simplifiedFormal {}).system .u32
    [(0, ['\u96f6']),
     (1, ['\u4e00']),
     (2, ['\u4e8c']),
     (9, ['\u4e5d']),
     (10, ['\u4e00', '\u5341']),
     (11, ['\u4e00', '\u5341', '\u4e00']),
     (19, ['\u4e00', '\u5341', '\u4e5d']),
     (20, ['\u4e8c', '\u5341']),
     (21, ['\u4e8c', '\u5341', '\u4e00']),
     (99, ['\u4e5d', '\u5341', '\u4e5d']),
     (100, ['\u4e00', '\u767e']),
     (101, ['\u4e00', '\u767e', '\u96f6', '\u4e00'])] = true := by decide +kernel

/-- src/previews/TraditionalChineseFormal.md -/
example : allShow (Named.chinese .traditionalFormal {}).system .u32
    [(0, ['\u96f6']),
     (1, ['\u4e00']),
     (2, ['\u4e8c']),
     (9, ['\u4e5d']),
     (10, ['\u4e00', '\u5341']),
     (11, ['\u4e00', '\u5341', '\u4e00']),
     (19, ['\u4e00', '\u5341', '\u4e5d']),
     (20, ['\u4e8c', '\u5341']),
     (21, ['\u4e8c', '\u5341', '\u4e00']),
     (99, ['\u4e5d', '\u5341', '\u4e5d']),
     (100, ['\u4e00', '\u767e']),
     (101, ['\u4e00', '\u767e', '\u96f6', '\u4e00'])] = true := by decide +kernel

/-- src/previews/CjkDecimal.md -/
example : allShow Named.cjkDecimal.system .u32
    [(0, ['\u3007']),
     (1, ['\u4e00']),
     (2, ['\u4e8c']),
     (3, ['\u4e09']),
     (4, ['\u56db']),
     (9, ['\u4e5d']),
     (10, ['\u4e00', '\u3007']),
     (11, ['\u4e00', '\u4e00']),
     (12, ['\u4e00', '\u4e8c']),
     (99, ['\u4e5d', '\u4e5d']),
     (100, ['\u4e00', '\u3007', '\u3007']),
     (101, ['\u4e00', '\u3007', '\u4e00']),
     (102, ['\u4e00', '\u3007', '\u4e8c'])] = true := by decide +kernel

/-- src/previews/CjkEarthlyBranch.md -/
example : allShow Named.cjkEarthlyBranch.system .u32
    [(1, ['\u5b50']),
     (2, ['\u4e11']),
     (3, ['\u5bc5']),
     (4, ['\u536f']),
     (5, ['\u8fb0']),
     (12, ['\u4ea5']),
     (13, ['\u4e00', '\u4e09']),
     (14, ['\u4e00', '\u56db']),
     (15, ['\u4e00', '\u4e94']),
     (144, ['\u4e00', '\u56db', '\u56db']),
     (145, ['\u4e00', '\u56db', '\u4e94']),
     (146, ['\u4e00', '\u56db', '\u516d']),
     (147, ['\u4e00', '\u56db', '\u4e03'])] = true := by decide +kernel

/-- src/previews/CjkHeavenlyStem.md -/
example : allShow Named.cjkHeavenlyStem.system .u32
    [(1, ['\u7532']),
     (2, ['\u4e59']),
     (3, ['\u4e19']),
     (4, ['\u4e01']),
     (5, ['\u620a']),
     (10, ['\u7678']),
     (11, ['\u4e00', '\u4e00']),
     (12, ['\u4e00', '\u4e8c']),
     (13, ['\u4e00', '\u4e09']),
     (100, ['\u4e00', '\u3007', '\u3007']),
     (101, ['\u4e00', '\u3007', '\u4e00']),
     (102, ['\u4e00', '\u3007', '\u4e8c']),
     (103, ['\u4e00', '\u3007', '\u4e09'])] = true := by decide +kernel

/-- src/previews/Devanagari.md -/
example : allShow Named.devanagari.system .u32
    [(0, ['\u0966']),
     (1, ['\u0967']),
     (2, ['\u0968']),
     (3, ['\u0969']),
     (4, ['\u096a']),
     (9, ['\u096f']),
     (10, ['\u0967', '\u0966']),
     (11, ['\u0967', '\u0967']),
     (12, ['\u0967', '\u0968']),
     (99, ['\u096f', '\u096f']),
     (100, ['\u0967', '\u0966', '\u0966']),
     (101, ['\u0967', '\u0966', '\u0967']),
     (102, ['\u0967', '\u0966', '\u0968'])] = true := by decide +kernel

/-- src/previews/EasternArabic.md -/
example : allShow Named.easternArabic.system .u32
    [(0, ['\u0660']),
     (1, ['\u0661']),
     (2, ['\u0662']),
     (3, ['\u0663']),
     (4, ['\u0664']),
     (9, ['\u0669']),
     (10, ['\u0661', '\u0660']),
     (11, ['\u0661', '\u0661']),
     (12, ['\u0661', '\u0662']),
     (99, ['\u0669', '\u0669']),
     (100, ['\u0661', '\u0660', '\u0660']),
     (101, ['\u0661', '\u0660', '\u0661']),
     (102, ['\u0661', '\u0660', '\u0662'])] = true := by decide +kernel

/-- src/previews/Ethiopic.md -/
example : allShow Named.ethiopic.system .u32
    [(1, ['\u1369']),
     (2, ['\u136a']),
     (3, ['\u136b']),
     (10, ['\u1372']),
     (11, ['\u1372', '\u1369']),
     (12, ['\u1372', '\u136a']),
     (99, ['\u137a', '\u1371']),
     (100, ['\u137b']),
     (101, ['\u137b', '\u1369']),
     (999, ['\u1371', '\u137b', '\u137a', '\u1371']),
     (1000, ['\u1372', '\u137b']),
     (1001, ['\u1372', '\u137b', '\u1369'])] = true := by decide +kernel

/-- src/previews/Georgian.md -/
example : allShow Named.georgian.system .u32
    [(1, ['\u10d0']),
     (2, ['\u10d1']),
     (3, ['\u10d2']),
     (9, ['\u10d7']),
     (10, ['\u10d8']),
     (11, ['\u10d8', '\u10d0']),
     (12, ['\u10d8', '\u10d1']),
     (99, ['\u10df', '\u10d7']),
     (100, ['\u10e0']),
     (101, ['\u10e0', '\u10d0'])] = true := by decide +kernel

/-- src/previews/GreekLower.md -/
example : allShow Named.greekLower.system .u32
    [(0, ['\u03b1']),
     (1, ['\u03b2']),
     (2, ['\u03b3']),
     (3, ['\u03b4']),
     (4, ['\u03b5']),
     (23, ['\u03c9']),
     (24, ['\u03b1', '\u03b1']),
     (25, ['\u03b1', '\u03b2']),
     (26, ['\u03b1', '\u03b3']),
     (575, ['\u03c8', '\u03c9']),
     (576, ['\u03c9', '\u03b1']),
     (577, ['\u03c9', '\u03b2']),
     (578, ['\u03c9', '\u03b3'])] = true := by decide +kernel

/-- src/previews/GreekUpper.md -/
example : allShow Named.greekUpper.system .u32
    [(0, ['\u0391']),
     (1, ['\u0392']),
     (2, ['\u0393']),
     (3, ['\u0394']),
     (4, ['\u0395']),
     (23, ['\u03a9']),
     (24, ['\u0391', '\u0391']),
     (25, ['\u0391', '\u0392']),
     (26, ['\u0391', '\u0393']),
     (575, ['\u03a8', '\u03a9']),
     (576, ['\u03a9', '\u0391']),
     (577, ['\u03a9', '\u0392']),
     (578, ['\u03a9', '\u0393'])] = true := by decide +kernel

/-- src/previews/Gujarati.md -/
example : allShow Named.gujarati.system .u32
    [(0, ['\u0ae6']),
     (1, ['\u0ae7']),
     (2, ['\u0ae8']),
     (3, ['\u0ae9']),
     (4, ['\u0aea']),
     (9, ['\u0aef']),
     (10, ['\u0ae7', '\u0ae6']),
     (11, ['\u0ae7', '\u0ae7']),
     (12, ['\u0ae7', '\u0ae8']),
     (99, ['\u0aef', '\u0aef']),
     (100, ['\u0ae7', '\u0ae6', '\u0ae6']),
     (101, ['\u0ae7', '\u0ae6', '\u0ae7']),
     (102, ['\u0ae7', '\u0ae6', '\u0ae8'])] = true := by decide +kernel

/-- src/previews/Gurmukhi.md -/
example : allShow Named.gurmukhi.system .u32
    [(0, ['\u0a66']),
     (1, ['\u0a67']),
     (2, ['\u0a68']),
     (3, ['\u0a69']),
     (4, ['\u0a6a']),
     (9, ['\u0a6f']),
     (10, ['\u0a67', '\u0a66']),
     (11, ['\u0a67', '\u0a67']),
     (12, ['\u0a67', '\u0a68']),
     (99, ['\u0a6f', '\u0a6f']),
     (100, ['\u0a67', '\u0a66', '\u0a66']),
     (101, ['\u0a67', '\u0a66', '\u0a67']),
     (102, ['\u0a67', '\u0a66', '\u0a68'])] = true := by decide +kernel

/-- src/previews/HanjaInformal.md -/
example : allShow Named.hanjaInformal.system .u32
    [(0, ['\u96f6']),
     (1, ['\u4e00']),
     (2, ['\u4e8c']),
     (9, ['\u4e5d']),
     (10, ['\u5341']),
     (11, ['\u5341', '\u4e00']),
     (19, ['\u5341', '\u4e5d']),
     (20, ['\u4e8c', '\u5341']),
     (21, ['\u4e8c', '\u5341', '\u4e00']),
     (99, ['\u4e5d', '\u5341', '\u4e5d']),
     (100, ['\u767e']),
     (101, ['\u767e', '\u4e00'])] = true := by decide +kernel

/-- src/previews/HangeulFormal.md -/
example : allShow Named.hangeulFormal.system .u32
    [(0, ['\uc601']),
     (1, ['\uc77c']),
     (2, ['\uc774']),
     (9, ['\uad6c']),
     (10, ['\uc77c', '\uc2ed']),
     (11, ['\uc77c', '\uc2ed', '\uc77c']),
     (19, ['\uc77c', '\uc2ed', '\uad6c']),
     (20, ['\uc774', '\uc2ed']),
     (21, ['\uc774', '\uc2ed', '\uc77c']),
     (99, ['\uad6c', '\uc2ed', '\uad6c']),
     (100, ['\uc77c', '\ubc31']),
     (101, ['\uc77c', '\ubc31', '\uc77c'])] = true := by decide +kernel

/-- src/previews/HangeulJamo.md -/
example : allShow Named.hangeulJamo.system .u32
    [(0, ['\u3131']),
     (1, ['\u3134']),
     (2, ['\u3137']),
     (3, ['\u3139']),
     (4, ['\u3141']),
     (13, ['\u314e']),
     (14, ['\u3131', '\u3131']),
     (15, ['\u3131', '\u3134']),
     (16, ['\u3131', '\u3137']),
     (195, ['\u314d', '\u314e']),
     (196, ['\u314e', '\u3131']),
     (197, ['\u314e', '\u3134']),
     (198, ['\u314e', '\u3137'])] = true := by decide +kernel

/-- src/previews/HangeulSyllable.md -/
example : allShow Named.hangeulSyllable.system .u32
    [(0, ['\uac00']),
     (1, ['\ub098']),
     (2, ['\ub2e4']),
     (3, ['\ub77c']),
     (4, ['\ub9c8']),
     (13, ['\ud558']),
     (14, ['\uac00', '\uac00']),
     (15, ['\uac00', '\ub098']),
     (16, ['\uac00', '\ub2e4']),
     (195, ['\ud30c', '\ud558']),
     (196, ['\ud558', '\uac00']),
     (197, ['\ud558', '\ub098']),
     (198, ['\ud558', '\ub2e4'])] = true := by decide +kernel

/-- src/previews/HanjaFormal.md -/
example : allShow Named.hanjaFormal.system .u32
    [(0, ['\u96f6']),
     (1, ['\u58f9']),
     (2, ['\u8cb3']),
     (9, ['\u4e5d']),
     (10, ['\u58f9', '\u62fe']),
     (11, ['\u58f9', '\u62fe', '\u58f9']),
     (19, ['\u58f9', '\u62fe', '\u4e5d']),
     (20, ['\u8cb3', '\u62fe']),
     (21, ['\u8cb3', '\u62fe', '\u58f9']),
     (99, ['\u4e5d', '\u62fe', '\u4e5d']),
     (100, ['\u58f9', '\u767e']),
     (101, ['\u58f9', '\u767e', '\u58f9'])] = true := by decide +kernel

/-- src/previews/Hebrew.md -/
example : allShow Named.hebrew.system .u32
    [(1, ['\u05f3', '\u05d0', '\u05f4']),
     (2, ['\u05f3', '\u05d1', '\u05f4']),
     (3, ['\u05f3', '\u05d2', '\u05f4']),
     (9, ['\u05f3', '\u05d8', '\u05f4']),
     (10, ['\u05f3', '\u05d9', '\u05f4']),
     (13, ['\u05d9', '\u05d2']),
     (14, ['\u05d9', '\u05d3']),
     (15, ['\u05d8', '\u05f4', '\u05d5']),
     (16, ['\u05d8', '\u05f4', '\u05d6']),
     (17, ['\u05d9', '\u05d6']),
     (396, ['\u05e9', '\u05e6', '\u05d5']),
     (397, ['\u05e9', '\u05e6', '\u05d6']),
     (398, ['\u05e9', '\u05e6', '\u05d7']),
     (399, ['\u05e9', '\u05e6', '\u05d8']),
     (400, ['\u05f3', '\u05ea', '\u05f4'])] = true := by decide +kernel

/-- src/previews/HexLower.md -/
example : allShow Named.hexLower.system .u32
    [(0, ['0']),
     (1, ['1']),
     (2, ['2']),
     (3, ['3']),
     (4, ['4']),
     (15, ['f']),
     (16, ['1', '0']),
     (17, ['1', '1']),
     (18, ['1', '2']),
     (255, ['f', 'f']),
     (256, ['1', '0', '0']),
     (257, ['1', '0', '1']),
     (258, ['1', '0', '2'])] = true := by decide +kernel

/-- src/previews/HexUpper.md -/
example : allShow Named.hexUpper.system .u32
    [(0, ['0']),
     (1, ['1']),
     (2, ['2']),
     (3, ['3']),
     (4, ['4']),
     (15, ['F']),
     (16, ['1', '0']),
     (17, ['1', '1']),
     (18, ['1', '2']),
     (255, ['F', 'F']),
     (256, ['1', '0', '0']),
     (257, ['1', '0', '1']),
     (258, ['1', '0', '2'])] = true := by decide +kernel

/-- src/previews/Hiragana.md -/
example : allShow Named.hiragana.system .u32
    [(0, ['\u3042']),
     (1, ['\u3044']),
     (2, ['\u3046']),
     (3, ['\u3048']),
     (4, ['\u304a']),
     (45, ['\u3093']),
     (46, ['\u3042', '\u3042']),
     (47, ['\u3042', '\u3044']),
     (48, ['\u3042', '\u3046']),
     (2115, ['\u3092', '\u3093']),
     (2116, ['\u3093', '\u3042']),
     (2117, ['\u3093', '\u3044']),
     (2118, ['\u3093', '\u3046'])] = true := by decide +kernel

/-- src/previews/HiraganaIroha.md -/
example : allShow Named.hiraganaIroha.system .u32
    [(0, ['\u3044']),
     (1, ['\u308d']),
     (2, ['\u306f']),
     (3, ['\u306b']),
     (4, ['\u307b']),
     (46, ['\u3059']),
     (47, ['\u3044', '\u3044']),
     (48, ['\u3044', '\u308d']),
     (49, ['\u3044', '\u306f']),
     (2208, ['\u305b', '\u3059']),
     (2209, ['\u3059', '\u3044']),
     (2210, ['\u3059', '\u308d']),
     (2211, ['\u3059', '\u306f'])] = true := by decide +kernel

/-- src/previews/JapaneseFormal.md -/
example : allShow Named.japaneseFormal.system .u32
    [(0, ['\u96f6']),
     (1, ['\u58f1']),
     (2, ['\u5f10']),
     (9, ['\u4e5d']),
     (10, ['\u58f1', '\u62fe']),
     (11, ['\u58f1', '\u62fe', '\u58f1']),
     (19, ['\u58f1', '\u62fe', '\u4e5d']),
     (20, ['\u5f10', '\u62fe']),
     (21, ['\u5f10', '\u62fe', '\u58f1']),
     (99, ['\u4e5d', '\u62fe', '\u4e5d']),
     (100, ['\u58f1', '\u767e']),
     (101, ['\u58f1', '\u767e', '\u58f1'])] = true := by decide +kernel

/-- src/previews/JapaneseInformal.md -/
example : allShow Named.japaneseInformal.system .u32
    [(0, ['\u3007']),
     (1, ['\u4e00']),
     (2, ['\u4e8c']),
     (9, ['\u4e5d']),
     (10, ['\u5341']),
     (11, ['\u5341', '\u4e00']),
     (19, ['\u5341', '\u4e5d']),
     (20, ['\u4e8c', '\u5341']),
     (21, ['\u4e8c', '\u5341', '\u4e00']),
     (99, ['\u4e5d', '\u5341', '\u4e5d']),
     (100, ['\u767e']),
     (101, ['\u767e', '\u4e00'])] = true := by decide +kernel

/-- src/previews/Kannada.md -/
example : allShow Named.kannada.system .u32
    [(0, ['\u0ce6']),
     (1, ['\u0ce7']),
     (2, ['\u0ce8']),
     (3, ['\u0ce9']),
     (4, ['\u0cea']),
     (9, ['\u0cef']),
     (10, ['\u0ce7', '\u0ce6']),
     (11, ['\u0ce7', '\u0ce7']),
     (12, ['\u0ce7', '\u0ce8']),
     (99, ['\u0cef', '\u0cef']),
     (100, ['\u0ce7', '\u0ce6', '\u0ce6']),
     (101, ['\u0ce7', '\u0ce6', '\u0ce7']),
     (102, ['\u0ce7', '\u0ce6', '\u0ce8'])] = true := by decide +kernel

/-- src/previews/Katakana.md -/
example : allShow Named.katakana.system .u32
    [(0, ['\u30a2']),
     (1, ['\u30a4']),
     (2, ['\u30a6']),
     (3, ['\u30a8']),
     (4, ['\u30aa']),
     (45, ['\u30f3']),
     (46, ['\u30a2', '\u30a2']),
     (47, ['\u30a2', '\u30a4']),
     (48, ['\u30a2', '\u30a6']),
     (2115, ['\u30f2', '\u30f3']),
     (2116, ['\u30f3', '\u30a2']),
     (2117, ['\u30f3', '\u30a4']),
     (2118, ['\u30f3', '\u30a6'])] = true := by decide +kernel

/-- src/previews/KatakanaIroha.md -/
example : allShow Named.katakanaIroha.system .u32
    [(0, ['\u30a4']),
     (1, ['\u30ed']),
     (2, ['\u30cf']),
     (3, ['\u30cb']),
     (4, ['\u30db']),
     (46, ['\u30b9']),
     (47, ['\u30a4', '\u30a4']),
     (48, ['\u30a4', '\u30ed']),
     (49, ['\u30a4', '\u30cf']),
     (2208, ['\u30bb', '\u30b9']),
     (2209, ['\u30b9', '\u30a4']),
     (2210, ['\u30b9', '\u30ed']),
     (2211, ['\u30b9', '\u30cf'])] = true := by decide +kernel

/-- src/previews/Lao.md -/
example : allShow Named.lao.system .u32
    [(0, ['\u0ed0']),
     (1, ['\u0ed1']),
     (2, ['\u0ed2']),
     (3, ['\u0ed3']),
     (4, ['\u0ed4']),
     (9, ['\u0ed9']),
     (10, ['\u0ed1', '\u0ed0']),
     (11, ['\u0ed1', '\u0ed1']),
     (12, ['\u0ed1', '\u0ed2']),
     (99, ['\u0ed9', '\u0ed9']),
     (100, ['\u0ed1', '\u0ed0', '\u0ed0']),
     (101, ['\u0ed1', '\u0ed0', '\u0ed1']),
     (102, ['\u0ed1', '\u0ed0', '\u0ed2'])] = true := by decide +kernel

/-- src/previews/Malayalam.md -/
example : allShow Named.malayalam.system .u32
    [(0, ['\u0d66']),
     (1, ['\u0d67']),
     (2, ['\u0d68']),
     (3, ['\u0d69']),
     (4, ['\u0d6a']),
     (9, ['\u0d6f']),
     (10, ['\u0d67', '\u0d66']),
     (11, ['\u0d67', '\u0d67']),
     (12, ['\u0d67', '\u0d68']),
     (99, ['\u0d6f', '\u0d6f']),
     (100, ['\u0d67', '\u0d66', '\u0d66']),
     (101, ['\u0d67', '\u0d66', '\u0d67']),
     (102, ['\u0d67', '\u0d66', '\u0d68'])] = true := by decide +kernel

/-- src/previews/Mongolian.md -/
example : allShow Named.mongolian.system .u32
    [(0, ['\u1810']),
     (1, ['\u1811']),
     (2, ['\u1812']),
     (3, ['\u1813']),
     (4, ['\u1814']),
     (9, ['\u1819']),
     (10, ['\u1811', '\u1810']),
     (11, ['\u1811', '\u1811']),
     (12, ['\u1811', '\u1812']),
     (99, ['\u1819', '\u1819']),
     (100, ['\u1811', '\u1810', '\u1810']),
     (101, ['\u1811', '\u1810', '\u1811']),
     (102, ['\u1811', '\u1810', '\u1812'])] = true := by decide +kernel

/-- src/previews/Myanmar.md -/
example : allShow Named.myanmar.system .u32
    [(0, ['\u1040']),
     (1, ['\u1041']),
     (2, ['\u1042']),
     (3, ['\u1043']),
     (4, ['\u1044']),
     (9, ['\u1049']),
     (10, ['\u1041', '\u1040']),
     (11, ['\u1041', '\u1041']),
     (12, ['\u1041', '\u1042']),
     (99, ['\u1049', '\u1049']),
     (100, ['\u1041', '\u1040', '\u1040']),
     (101, ['\u1041', '\u1040', '\u1041']),
     (102, ['\u1041', '\u1040', '\u1042'])] = true := by decide +kernel

/-- src/previews/Oriya.md -/
example : allShow Named.oriya.system .u32
    [(0, ['\u0b66']),
     (1, ['\u0b67']),
     (2, ['\u0b68']),
     (3, ['\u0b69']),
     (4, ['\u0b6a']),
     (9, ['\u0b6f']),
     (10, ['\u0b67', '\u0b66']),
     (11, ['\u0b67', '\u0b67']),
     (12, ['\u0b67', '\u0b68']),
     (99, ['\u0b6f', '\u0b6f']),
     (100, ['\u0b67', '\u0b66', '\u0b66']),
     (101, ['\u0b67', '\u0b66', '\u0b67']),
     (102, ['\u0b67', '\u0b66', '\u0b68'])] = true := by decide +kernel

/-- src/previews/Persian.md -/
example : allShow Named.persian.system .u32
    [(0, ['\u06f0']),
     (1, ['\u06f1']),
     (2, ['\u06f2']),
     (3, ['\u06f3']),
     (4, ['\u06f4']),
     (9, ['\u06f9']),
     (10, ['\u06f1', '\u06f0']),
     (11, ['\u06f1', '\u06f1']),
     (12, ['\u06f1', '\u06f2']),
     (99, ['\u06f9', '\u06f9']),
     (100, ['\u06f1', '\u06f0', '\u06f0']),
     (101, ['\u06f1', '\u06f0', '\u06f1']),
     (102, ['\u06f1', '\u06f0', '\u06f2'])] = true := by decide +kernel

/-- src/previews/Tamil.md -/
example : allShow Named.tamil.system .u32
    [(0, ['\u0be6']),
     (1, ['\u0be7']),
     (2, ['\u0be8']),
     (3, ['\u0be9']),
     (4, ['\u0bea']),
     (9, ['\u0bef']),
     (10, ['\u0be7', '\u0be6']),
     (11, ['\u0be7', '\u0be7']),
     (12, ['\u0be7', '\u0be8']),
     (99, ['\u0bef', '\u0bef']),
     (100, ['\u0be7', '\u0be6', '\u0be6']),
     (101, ['\u0be7', '\u0be6', '\u0be7']),
     (102, ['\u0be7', '\u0be6', '\u0be8'])] = true := by decide +kernel

/-- src/previews/Telugu.md -/
example : allShow Named.telugu.system .u32
    [(0, ['\u0c66']),
     (1, ['\u0c67']),
     (2, ['\u0c68']),
     (3, ['\u0c69']),
     (4, ['\u0c6a']),
     (9, ['\u0c6f']),
     (10, ['\u0c67', '\u0c66']),
     (11, ['\u0c67', '\u0c67']),
     (12, ['\u0c67', '\u0c68']),
     (99, ['\u0c6f', '\u0c6f']),
     (100, ['\u0c67', '\u0c66', '\u0c66']),
     (101, ['\u0c67', '\u0c66', '\u0c67']),
     (102, ['\u0c67', '\u0c66', '\u0c68'])] = true := by decide +kernel

/-- src/previews/Thai.md -/
example : allShow Named.thai.system .u32
    [(0, ['\u0e50']),
     (1, ['\u0e51']),
     (2, ['\u0e52']),
     (3, ['\u0e53']),
     (4, ['\u0e54']),
     (9, ['\u0e59']),
     (10, ['\u0e51', '\u0e50']),
     (11, ['\u0e51', '\u0e51']),
     (12, ['\u0e51', '\u0e52']),
     (99, ['\u0e59', '\u0e59']),
     (100, ['\u0e51', '\u0e50', '\u0e50']),
     (101, ['\u0e51', '\u0e50', '\u0e51']),
     (102, ['\u0e51', '\u0e50', '\u0e52'])] = true := by decide +kernel

/-- src/previews/Tibetan.md -/
example : allShow Named.tibetan.system .u32
    [(0, ['\u0f20']),
     (1, ['\u0f21']),
     (2, ['\u0f22']),
     (3, ['\u0f23']),
     (4, ['\u0f24']),
     (9, ['\u0f29']),
     (10, ['\u0f21', '\u0f20']),
     (11, ['\u0f21', '\u0f21']),
     (12, ['\u0f21', '\u0f22']),
     (99, ['\u0f29', '\u0f29']),
     (100, ['\u0f21', '\u0f20', '\u0f20']),
     (101, ['\u0f21', '\u0f20', '\u0f21']),
     (102, ['\u0f21', '\u0f20', '\u0f22'])] = true := by decide +kernel

/-- src/chinese.rs test `simplified_financial` -/
example : allShow (Named.chinese .simplifiedInformal ({} : ChineseOptions).financial).system .u128
    [(10, ['\u62fe']),
     (12, ['\u62fe', '\u8d30']),
     (100, ['\u58f9', '\u4f70']),
     (103, ['\u58f9', '\u4f70', '\u96f6', '\u53c1']),
     (1000, ['\u58f9', '\u4edf']),
     (1006, ['\u58f9', '\u4edf', '\u96f6', '\u9646']),
     (1010, ['\u58f9', '\u4edf', '\u96f6', '\u58f9', '\u62fe']),
     (1011, ['\u58f9', '\u4edf', '\u96f6', '\u58f9', '\u62fe', '\u58f9']),
     (1100, ['\u58f9', '\u4edf', '\u58f9', '\u4f70']),
     (1011, ['\u58f9', '\u4edf', '\u96f6', '\u58f9', '\u62fe', '\u58f9']),
     (10000, ['\u58f9', '\u4e07']),
     (100001, ['\u62fe', '\u4e07', '\u96f6', '\u58f9']),
     (100000, ['\u62fe', '\u4e07']),
     (110001, ['\u62fe', '\u58f9', '\u4e07', '\u96f6', '\u58f9']),
     (100000000, ['\u58f9', '\u4ebf']),
     (100000001, ['\u58f9', '\u4ebf', '\u96f6', '\u58f9']),
     (10000000000000000, ['\u58f9', '\u4eac']),
     (11111, ['\u58f9', '\u4e07', '\u58f9', '\u4edf', '\u58f9', '\u4f70', '\u58f9', '\u62fe', '\u58f9']),
     (1010000000000, ['\u58f9', '\u5146', '\u96f6', '\u58f9', '\u4f70', '\u4ebf']),
     (7400000000000, ['\u67d2', '\u5146', '\u8086', '\u4edf', '\u4ebf']),
     (938463463370000000000000000, ['\u7396', '\u4f70', '\u53c1', '\u62fe', '\u634c', '\u79ed', '\u8086', '\u4edf', '\u9646', '\u4f70', '\u53c1', '\u62fe', '\u8086', '\u5793', '\u9646', '\u4edf', '\u53c1', '\u4f70', '\u53c1', '\u62fe', '\u67d2', '\u4eac']),
     (340282366920938463463374607431768211455, ['\u53c1', '\u4f70', '\u8086', '\u62fe', '\u6da7', '\u8d30', '\u4edf', '\u634c', '\u4f70', '\u8d30', '\u62fe', '\u53c1', '\u6c9f', '\u9646', '\u4edf', '\u9646', '\u4f70', '\u7396', '\u62fe', '\u8d30', '\u7a70', '\u96f6', '\u7396', '\u4f70', '\u53c1', '\u62fe', '\u634c', '\u79ed', '\u8086', '\u4edf', '\u9646', '\u4f70', '\u53c1', '\u62fe', '\u8086', '\u5793', '\u9646', '\u4edf', '\u53c1', '\u4f70', '\u53c1', '\u62fe', '\u67d2', '\u4eac', '\u8086', '\u4edf', '\u9646', '\u4f70', '\u96f6', '\u67d2', '\u5146', '\u8086', '\u4edf', '\u53c1', '\u4f70', '\u58f9', '\u62fe', '\u67d2', '\u4ebf', '\u9646', '\u4edf', '\u634c', '\u4f70', '\u8d30', '\u62fe', '\u58f9', '\u4e07', '\u58f9', '\u4edf', '\u8086', '\u4f70', '\u4f0d', '\u62fe', '\u4f0d'])] = true := by decide +kernel

/-- src/chinese.rs test `simplified_financial_low` -/
example : allShow (Named.chinese .simplifiedInformal ({} : ChineseOptions).financial.shortScale).system .u128
    [(10, ['\u62fe']),
     (12, ['\u62fe', '\u8d30']),
     (100, ['\u58f9', '\u4f70']),
     (103, ['\u58f9', '\u4f70', '\u96f6', '\u53c1']),
     (1000, ['\u58f9', '\u4edf']),
     (1006, ['\u58f9', '\u4edf', '\u96f6', '\u9646']),
     (1010, ['\u58f9', '\u4edf', '\u96f6', '\u58f9', '\u62fe']),
     (1011, ['\u58f9', '\u4edf', '\u96f6', '\u58f9', '\u62fe', '\u58f9']),
     (1100, ['\u58f9', '\u4edf', '\u58f9', '\u4f70']),
     (1011, ['\u58f9', '\u4edf', '\u96f6', '\u58f9', '\u62fe', '\u58f9']),
     (10000, ['\u58f9', '\u4e07']),
     (100001, ['\u58f9', '\u4ebf', '\u96f6', '\u58f9']),
     (100000, ['\u58f9', '\u4ebf']),
     (110001, ['\u58f9', '\u4ebf', '\u58f9', '\u4e07', '\u96f6', '\u58f9']),
     (100000000, ['\u58f9', '\u5793']),
     (100000001, ['\u58f9', '\u5793', '\u96f6', '\u58f9']),
     (11111, ['\u58f9', '\u4e07', '\u58f9', '\u4edf', '\u58f9', '\u4f70', '\u58f9', '\u62fe', '\u58f9']),
     (1010000000000, ['\u58f9', '\u6da7', '\u96f6', '\u58f9', '\u7a70']),
     (7400000000000, ['\u67d2', '\u6da7', '\u8086', '\u6c9f'])] = true := by decide +kernel

example : (Named.chinese .simplifiedInformal ({} : ChineseOptions).financial.shortScale).system.tryFormat cfg64 .u128 10000000000000000 = .err (.outOfBounds 10000000000000000) := by decide +kernel

example : (Named.chinese .simplifiedInformal ({} : ChineseOptions).financial.shortScale).system.tryFormat cfg64 .u128 938463463370000000000000000 = .err (.outOfBounds 938463463370000000000000000) := by decide +kernel

example : (Named.chinese .simplifiedInformal ({} : ChineseOptions).financial.shortScale).system.tryFormat cfg64 .u128 340282366920938463463374607431768211455 = .err (.outOfBounds 340282366920938463463374607431768211455) := by decide +kernel

/-- src/chinese.rs test `simplified_financial_high` -/
example : allShow (Named.chinese .simplifiedInformal ({} : ChineseOptions).financial.longScale).system .u128
    [(10, ['\u62fe']),
     (12, ['\u62fe', '\u8d30']),
     (100, ['\u58f9', '\u4f70']),
     (103, ['\u58f9', '\u4f70', '\u96f6', '\u53c1']),
     (1000, ['\u58f9', '\u4edf']),
     (1006, ['\u58f9', '\u4edf', '\u96f6', '\u9646']),
     (1010, ['\u58f9', '\u4edf', '\u96f6', '\u58f9', '\u62fe']),
     (1011, ['\u58f9', '\u4edf', '\u96f6', '\u58f9', '\u62fe', '\u58f9']),
     (1100, ['\u58f9', '\u4edf', '\u58f9', '\u4f70']),
     (1011, ['\u58f9', '\u4edf', '\u96f6', '\u58f9', '\u62fe', '\u58f9']),
     (10000, ['\u58f9', '\u4e07']),
     (100001, ['\u62fe', '\u4e07', '\u96f6', '\u58f9']),
     (100000, ['\u62fe', '\u4e07']),
     (110001, ['\u62fe', '\u58f9', '\u4e07', '\u96f6', '\u58f9']),
     (100000000, ['\u58f9', '\u4ebf']),
     (100000001, ['\u58f9', '\u4ebf', '\u96f6', '\u58f9']),
     (10000000000000000, ['\u58f9', '\u5146']),
     (11111, ['\u58f9', '\u4e07', '\u58f9', '\u4edf', '\u58f9', '\u4f70', '\u58f9', '\u62fe', '\u58f9']),
     (1010000000000, ['\u58f9', '\u4e07', '\u96f6', '\u58f9', '\u4f70', '\u4ebf']),
     (7400000000000, ['\u67d2', '\u4e07', '\u8086', '\u4edf', '\u4ebf']),
     (938463463370000000000000000, ['\u7396', '\u4f70', '\u53c1', '\u62fe', '\u634c', '\u4ebf', '\u8086', '\u4edf', '\u9646', '\u4f70', '\u53c1', '\u62fe', '\u8086', '\u4e07', '\u9646', '\u4edf', '\u53c1', '\u4f70', '\u53c1', '\u62fe', '\u67d2', '\u5146']),
     (340282366920938463463374607431768211455, ['\u53c1', '\u4f70', '\u8086', '\u62fe', '\u4e07', '\u8d30', '\u4edf', '\u634c', '\u4f70', '\u8d30', '\u62fe', '\u53c1', '\u4eac', '\u9646', '\u4edf', '\u9646', '\u4f70', '\u7396', '\u62fe', '\u8d30', '\u4e07', '\u96f6', '\u7396', '\u4f70', '\u53c1', '\u62fe', '\u634c', '\u4ebf', '\u8086', '\u4edf', '\u9646', '\u4f70', '\u53c1', '\u62fe', '\u8086', '\u4e07', '\u9646', '\u4edf', '\u53c1', '\u4f70', '\u53c1', '\u62fe', '\u67d2', '\u5146', '\u8086', '\u4edf', '\u9646', '\u4f70', '\u96f6', '\u67d2', '\u4e07', '\u8086', '\u4edf', '\u53c1', '\u4f70', '\u58f9', '\u62fe', '\u67d2', '\u4ebf', '\u9646', '\u4edf', '\u634c', '\u4f70', '\u8d30', '\u62fe', '\u58f9', '\u4e07', '\u58f9', '\u4edf', '\u8086', '\u4f70', '\u4f0d', '\u62fe', '\u4f0d'])] = true := by decide +kernel

/-- src/chinese.rs test `simplified_financial_mid` -/
example : allShow (Named.chinese .simplifiedInformal ({} : ChineseOptions).financial.midScale).system .u128
    [(10, ['\u62fe']),
     (12, ['\u62fe', '\u8d30']),
     (100, ['\u58f9', '\u4f70']),
     (103, ['\u58f9', '\u4f70', '\u96f6', '\u53c1']),
     (1000, ['\u58f9', '\u4edf']),
     (1006, ['\u58f9', '\u4edf', '\u96f6', '\u9646']),
     (1010, ['\u58f9', '\u4edf', '\u96f6', '\u58f9', '\u62fe']),
     (1011, ['\u58f9', '\u4edf', '\u96f6', '\u58f9', '\u62fe', '\u58f9']),
     (1100, ['\u58f9', '\u4edf', '\u58f9', '\u4f70']),
     (1011, ['\u58f9', '\u4edf', '\u96f6', '\u58f9', '\u62fe', '\u58f9']),
     (10000, ['\u58f9', '\u4e07']),
     (100001, ['\u62fe', '\u4e07', '\u96f6', '\u58f9']),
     (100000, ['\u62fe', '\u4e07']),
     (110001, ['\u62fe', '\u58f9', '\u4e07', '\u96f6', '\u58f9']),
     (100000000, ['\u58f9', '\u4ebf']),
     (100000001, ['\u58f9', '\u4ebf', '\u96f6', '\u58f9']),
     (10000000000000000, ['\u58f9', '\u5146']),
     (11111, ['\u58f9', '\u4e07', '\u58f9', '\u4edf', '\u58f9', '\u4f70', '\u58f9', '\u62fe', '\u58f9']),
     (1010000000000, ['\u58f9', '\u4e07', '\u96f6', '\u58f9', '\u4f70', '\u4ebf']),
     (7400000000000, ['\u67d2', '\u4e07', '\u8086', '\u4edf', '\u4ebf']),
     (938463463370000000000000000, ['\u7396', '\u4f70', '\u53c1', '\u62fe', '\u634c', '\u4eac', '\u8086', '\u4edf', '\u9646', '\u4f70', '\u53c1', '\u62fe', '\u8086', '\u4e07', '\u9646', '\u4edf', '\u53c1', '\u4f70', '\u53c1', '\u62fe', '\u67d2', '\u5146']),
     (340282366920938463463374607431768211455, ['\u53c1', '\u4f70', '\u8086', '\u62fe', '\u4e07', '\u8d30', '\u4edf', '\u634c', '\u4f70', '\u8d30', '\u62fe', '\u53c1', '\u5793', '\u9646', '\u4edf', '\u9646', '\u4f70', '\u7396', '\u62fe', '\u8d30', '\u4e07', '\u96f6', '\u7396', '\u4f70', '\u53c1', '\u62fe', '\u634c', '\u4eac', '\u8086', '\u4edf', '\u9646', '\u4f70', '\u53c1', '\u62fe', '\u8086', '\u4e07', '\u9646', '\u4edf', '\u53c1', '\u4f70', '\u53c1', '\u62fe', '\u67d2', '\u5146', '\u8086', '\u4edf', '\u9646', '\u4f70', '\u96f6', '\u67d2', '\u4e07', '\u8086', '\u4edf', '\u53c1', '\u4f70', '\u58f9', '\u62fe', '\u67d2', '\u4ebf', '\u9646', '\u4edf', '\u634c', '\u4f70', '\u8d30', '\u62fe', '\u58f9', '\u4e07', '\u58f9', '\u4edf', '\u8086', '\u4f70', '\u4f0d', '\u62fe', '\u4f0d'])] = true := by decide +kernel

/-- src/chinese.rs test `simplified` -/
example : allShow (Named.chinese .simplifiedInformal ({} : ChineseOptions)).system .u128
    [(10, ['\u5341']),
     (12, ['\u5341', '\u4e8c']),
     (100, ['\u4e00', '\u767e']),
     (103, ['\u4e00', '\u767e', '\u96f6', '\u4e09']),
     (1000, ['\u4e00', '\u5343']),
     (1006, ['\u4e00', '\u5343', '\u96f6', '\u516d']),
     (1010, ['\u4e00', '\u5343', '\u96f6', '\u4e00', '\u5341']),
     (1011, ['\u4e00', '\u5343', '\u96f6', '\u4e00', '\u5341', '\u4e00']),
     (1100, ['\u4e00', '\u5343', '\u4e00', '\u767e']),
     (1011, ['\u4e00', '\u5343', '\u96f6', '\u4e00', '\u5341', '\u4e00']),
     (10000, ['\u4e00', '\u4e07']),
     (100001, ['\u5341', '\u4e07', '\u96f6', '\u4e00']),
     (100000, ['\u5341', '\u4e07']),
     (110001, ['\u5341', '\u4e00', '\u4e07', '\u96f6', '\u4e00']),
     (100000000, ['\u4e00', '\u4ebf']),
     (100000001, ['\u4e00', '\u4ebf', '\u96f6', '\u4e00']),
     (10000000000000000, ['\u4e00', '\u4eac']),
     (11111, ['\u4e00', '\u4e07', '\u4e00', '\u5343', '\u4e00', '\u767e', '\u4e00', '\u5341', '\u4e00']),
     (1010000000000, ['\u4e00', '\u5146', '\u96f6', '\u4e00', '\u767e', '\u4ebf']),
     (7400000000000, ['\u4e03', '\u5146', '\u56db', '\u5343', '\u4ebf']),
     (938463463370000000000000000, ['\u4e5d', '\u767e', '\u4e09', '\u5341', '\u516b', '\u79ed', '\u56db', '\u5343', '\u516d', '\u767e', '\u4e09', '\u5341', '\u56db', '\u5793', '\u516d', '\u5343', '\u4e09', '\u767e', '\u4e09', '\u5341', '\u4e03', '\u4eac']),
     (340282366920938463463374607431768211455, ['\u4e09', '\u767e', '\u56db', '\u5341', '\u6da7', '\u4e8c', '\u5343', '\u516b', '\u767e', '\u4e8c', '\u5341', '\u4e09', '\u6c9f', '\u516d', '\u5343', '\u516d', '\u767e', '\u4e5d', '\u5341', '\u4e8c', '\u7a70', '\u96f6', '\u4e5d', '\u767e', '\u4e09', '\u5341', '\u516b', '\u79ed', '\u56db', '\u5343', '\u516d', '\u767e', '\u4e09', '\u5341', '\u56db', '\u5793', '\u516d', '\u5343', '\u4e09', '\u767e', '\u4e09', '\u5341', '\u4e03', '\u4eac', '\u56db', '\u5343', '\u516d', '\u767e', '\u96f6', '\u4e03', '\u5146', '\u56db', '\u5343', '\u4e09', '\u767e', '\u4e00', '\u5341', '\u4e03', '\u4ebf', '\u516d', '\u5343', '\u516b', '\u767e', '\u4e8c', '\u5341', '\u4e00', '\u4e07', '\u4e00', '\u5343', '\u56db', '\u767e', '\u4e94', '\u5341', '\u4e94'])] = true := by decide +kernel

/-- src/chinese.rs test `traditional` -/
example : allShow (Named.chinese .traditionalInformal ({} : ChineseOptions)).system .u128
    [(10, ['\u5341']),
     (12, ['\u5341', '\u4e8c']),
     (100, ['\u4e00', '\u767e']),
     (103, ['\u4e00', '\u767e', '\u96f6', '\u4e09']),
     (1000, ['\u4e00', '\u5343']),
     (1006, ['\u4e00', '\u5343', '\u96f6', '\u516d']),
     (1010, ['\u4e00', '\u5343', '\u96f6', '\u4e00', '\u5341']),
     (1011, ['\u4e00', '\u5343', '\u96f6', '\u4e00', '\u5341', '\u4e00']),
     (1100, ['\u4e00', '\u5343', '\u4e00', '\u767e']),
     (1011, ['\u4e00', '\u5343', '\u96f6', '\u4e00', '\u5341', '\u4e00']),
     (10000, ['\u4e00', '\u842c']),
     (100001, ['\u5341', '\u842c', '\u96f6', '\u4e00']),
     (100000, ['\u5341', '\u842c']),
     (110001, ['\u5341', '\u4e00', '\u842c', '\u96f6', '\u4e00']),
     (100000000, ['\u4e00', '\u5104']),
     (100000001, ['\u4e00', '\u5104', '\u96f6', '\u4e00']),
     (10000000000000000, ['\u4e00', '\u4eac']),
     (11111, ['\u4e00', '\u842c', '\u4e00', '\u5343', '\u4e00', '\u767e', '\u4e00', '\u5341', '\u4e00']),
     (1010000000000, ['\u4e00', '\u5146', '\u96f6', '\u4e00', '\u767e', '\u5104']),
     (7400000000000, ['\u4e03', '\u5146', '\u56db', '\u5343', '\u5104']),
     (938463463370000000000000000, ['\u4e5d', '\u767e', '\u4e09', '\u5341', '\u516b', '\u79ed', '\u56db', '\u5343', '\u516d', '\u767e', '\u4e09', '\u5341', '\u56db', '\u5793', '\u516d', '\u5343', '\u4e09', '\u767e', '\u4e09', '\u5341', '\u4e03', '\u4eac']),
     (340282366920938463463374607431768211455, ['\u4e09', '\u767e', '\u56db', '\u5341', '\u6f97', '\u4e8c', '\u5343', '\u516b', '\u767e', '\u4e8c', '\u5341', '\u4e09', '\u6e9d', '\u516d', '\u5343', '\u516d', '\u767e', '\u4e5d', '\u5341', '\u4e8c', '\u7a70', '\u96f6', '\u4e5d', '\u767e', '\u4e09', '\u5341', '\u516b', '\u79ed', '\u56db', '\u5343', '\u516d', '\u767e', '\u4e09', '\u5341', '\u56db', '\u5793', '\u516d', '\u5343', '\u4e09', '\u767e', '\u4e09', '\u5341', '\u4e03', '\u4eac', '\u56db', '\u5343', '\u516d', '\u767e', '\u96f6', '\u4e03', '\u5146', '\u56db', '\u5343', '\u4e09', '\u767e', '\u4e00', '\u5341', '\u4e03', '\u5104', '\u516d', '\u5343', '\u516b', '\u767e', '\u4e8c', '\u5341', '\u4e00', '\u842c', '\u4e00', '\u5343', '\u56db', '\u767e', '\u4e94', '\u5341', '\u4e94'])] = true := by decide +kernel

/-- src/chinese.rs test `traditional_financial` -/
example : allShow (Named.chinese .traditionalInformal ({} : ChineseOptions).financial).system .u128
    [(10, ['\u62fe']),
     (12, ['\u62fe', '\u8cb3']),
     (100, ['\u58f9', '\u4f70']),
     (103, ['\u58f9', '\u4f70', '\u96f6', '\u53c3']),
     (1000, ['\u58f9', '\u4edf']),
     (1006, ['\u58f9', '\u4edf', '\u96f6', '\u9678']),
     (1010, ['\u58f9', '\u4edf', '\u96f6', '\u58f9', '\u62fe']),
     (1011, ['\u58f9', '\u4edf', '\u96f6', '\u58f9', '\u62fe', '\u58f9']),
     (1100, ['\u58f9', '\u4edf', '\u58f9', '\u4f70']),
     (1011, ['\u58f9', '\u4edf', '\u96f6', '\u58f9', '\u62fe', '\u58f9']),
     (10000, ['\u58f9', '\u842c']),
     (100001, ['\u62fe', '\u842c', '\u96f6', '\u58f9']),
     (100000, ['\u62fe', '\u842c']),
     (110001, ['\u62fe', '\u58f9', '\u842c', '\u96f6', '\u58f9']),
     (100000000, ['\u58f9', '\u5104']),
     (100000001, ['\u58f9', '\u5104', '\u96f6', '\u58f9']),
     (10000000000000000, ['\u58f9', '\u4eac']),
     (11111, ['\u58f9', '\u842c', '\u58f9', '\u4edf', '\u58f9', '\u4f70', '\u58f9', '\u62fe', '\u58f9']),
     (1010000000000, ['\u58f9', '\u5146', '\u96f6', '\u58f9', '\u4f70', '\u5104']),
     (7400000000000, ['\u67d2', '\u5146', '\u8086', '\u4edf', '\u5104']),
     (938463463370000000000000000, ['\u7396', '\u4f70', '\u53c3', '\u62fe', '\u634c', '\u79ed', '\u8086', '\u4edf', '\u9678', '\u4f70', '\u53c3', '\u62fe', '\u8086', '\u5793', '\u9678', '\u4edf', '\u53c3', '\u4f70', '\u53c3', '\u62fe', '\u67d2', '\u4eac']),
     (340282366920938463463374607431768211455, ['\u53c3', '\u4f70', '\u8086', '\u62fe', '\u6f97', '\u8cb3', '\u4edf', '\u634c', '\u4f70', '\u8cb3', '\u62fe', '\u53c3', '\u6e9d', '\u9678', '\u4edf', '\u9678', '\u4f70', '\u7396', '\u62fe', '\u8cb3', '\u7a70', '\u96f6', '\u7396', '\u4f70', '\u53c3', '\u62fe', '\u634c', '\u79ed', '\u8086', '\u4edf', '\u9678', '\u4f70', '\u53c3', '\u62fe', '\u8086', '\u5793', '\u9678', '\u4edf', '\u53c3', '\u4f70', '\u53c3', '\u62fe', '\u67d2', '\u4eac', '\u8086', '\u4edf', '\u9678', '\u4f70', '\u96f6', '\u67d2', '\u5146', '\u8086', '\u4edf', '\u53c3', '\u4f70', '\u58f9', '\u62fe', '\u67d2', '\u5104', '\u9678', '\u4edf', '\u634c', '\u4f70', '\u8cb3', '\u62fe', '\u58f9', '\u842c', '\u58f9', '\u4edf', '\u8086', '\u4f70', '\u4f0d', '\u62fe', '\u4f0d'])] = true := by decide +kernel

/-! Assertions of src/additive.rs -/

example : shows Named.romanLower.system .u32 4000 ['i', '\u0305', 'v', '\u0305'] = true := by decide +kernel
example : shows Named.romanLower.system .u32 4001 ['i', '\u0305', 'v', '\u0305', 'i'] = true := by decide +kernel
example : shows Named.romanLower.system .u32 2000000 ['m', '\u0305', 'm', '\u0305'] = true := by decide +kernel
example : shows Named.romanUpper.system .u32 4000 ['I', '\u0305', 'V', '\u0305'] = true := by decide +kernel
example : shows Named.romanUpper.system .u32 4001 ['I', '\u0305', 'V', '\u0305', 'I'] = true := by decide +kernel
example : shows Named.romanUpper.system .u32 2000000 ['M', '\u0305', 'M', '\u0305'] = true := by decide +kernel
example : shows Named.romanUpper.system .u32 0 ['N'] = true := by decide +kernel
example : shows Named.romanUpper.system .u32 1 ['I'] = true := by decide +kernel
example : shows Named.romanUpper.system .u32 2 ['I', 'I'] = true := by decide +kernel
example : shows Named.romanUpper.system .u32 3 ['I', 'I', 'I'] = true := by decide +kernel
example : shows Named.romanUpper.system .u32 4 ['I', 'V'] = true := by decide +kernel
example : shows Named.romanUpper.system .u32 5 ['V'] = true := by decide +kernel
example : shows Named.romanLower.system .u32 0 ['n'] = true := by decide +kernel
example : shows Named.romanLower.system .u32 1 ['i'] = true := by decide +kernel
example : shows Named.romanLower.system .u32 2 ['i', 'i'] = true := by decide +kernel
example : shows Named.romanLower.system .u32 3 ['i', 'i', 'i'] = true := by decide +kernel
example : shows Named.romanLower.system .u32 4 ['i', 'v'] = true := by decide +kernel
example : shows Named.romanLower.system .u32 5 ['v'] = true := by decide +kernel
example : shows Named.romanLower.system .u32 4000 ['i', '\u0305', 'v', '\u0305'] = true := by decide +kernel
example : shows Named.romanLower.system .u32 2000000 ['m', '\u0305', 'm', '\u0305'] = true := by decide +kernel

/-! Assertions of src/digital.rs -/

example : shows Named.hexUpper.system .u32 15 ['F'] = true := by decide +kernel
example : shows Named.hexLower.system .u32 4276998352 ['f', 'e', 'e', 'd', 'd', '0', 'd', '0'] = true := by decide +kernel
example : shows Named.decimal.system .u8 0 ['0'] = true := by decide +kernel
example : shows Named.decimal.system .u8 1 ['1'] = true := by decide +kernel
example : shows Named.decimal.system .u8 12 ['1', '2'] = true := by decide +kernel
example : shows Named.letterLower.system .u8 0 ['a'] = true := by decide +kernel
example : shows Named.letterUpper.system .u8 26 ['A', 'A'] = true := by decide +kernel
example : shows (DigitSys.oneBased Nominals.letterLower).system .u8 1 ['a'] = true := by decide +kernel
example : shows (DigitSys.oneBased Nominals.letterUpper).system .u8 26 ['Z'] = true := by decide +kernel
example : shows (DigitSys.oneBased Nominals.letterUpper).system .u8 27 ['A', 'A'] = true := by decide +kernel

/-! Assertions of src/ethiopic.rs -/

example : shows Named.ethiopic.system .u32 1 ['\u1369'] = true := by decide +kernel
example : shows Named.ethiopic.system .u32 100 ['\u137b'] = true := by decide +kernel
example : shows Named.ethiopic.system .u32 101 ['\u137b', '\u1369'] = true := by decide +kernel
example : shows Named.ethiopic.system .u32 78010092 ['\u1378', '\u1370', '\u137b', '\u1369', '\u137c', '\u137a', '\u136a'] = true := by decide +kernel
example : shows Named.ethiopic.system .u64 780100000092 ['\u1378', '\u1370', '\u137b', '\u1369', '\u137c', '\u137c', '\u137a', '\u136a'] = true := by decide +kernel

/-! Assertions of src/hebrew.rs -/

example : shows Named.hebrew.system .u32 997 ['\u05ea', '\u05ea', '\u05e7', '\u05e6', '\u05d6'] = true := by decide +kernel
example : shows Named.hebrew.system .u32 1 ['\u05f3', '\u05d0', '\u05f4'] = true := by decide +kernel
example : shows Named.hebrew.system .u32 15 ['\u05d8', '\u05f4', '\u05d5'] = true := by decide +kernel
example : shows Named.hebrew.system .u32 16 ['\u05d8', '\u05f4', '\u05d6'] = true := by decide +kernel

/-- src/hebrew.rs:84 -/
example : Named.hebrew.system.tryFormat cfg64 .u32 0 = .err .noZeroSymbol := by decide +kernel
/-- src/digital.rs:694-697 -/
example : (DigitSys.oneBased letterLower).system.tryFormat cfg64 .u8 0 = .err .noZeroSymbol := by decide +kernel

/-- examples/basics.rs:9-26 -/
example : shows Named.decimal.system .u32 0 ['0'] && allShow Named.letterLower.system .u32 [(0, ['a']), (1, ['b']), (26, ['a', 'a'])] &&
    allShow (DigitSys.oneBased letterLower).system .u32 [(1, ['a']), (2, ['b']), (27, ['a', 'a']), (0, ['0'])] = true := by decide +kernel
/-- examples/basics.rs:22-25 -/
example : tryToNominal cfg64 .u32 0 (DigitSys.oneBased letterLower).system = .err .noZeroSymbol := by decide +kernel
/-- src/lib.rs:88-96 test `boxing` -/
example : shows Named.romanUpper.system.boxed .u32 1 ['I'] = true := by decide +kernel

/-- The string after a call: its text and whether it is inline. -/
def shown {ε : Type} : Res ε NStr → Option (List Char × Bool)
  | .ok s => s.asStr.map fun t => (t, s.isInline)
  | _ => none

/-- src/nominalstring.rs:558-566, 594-602 tests `forward_ops`, `reverse_ops` -/
example : [NStr.new, NStr.newReverse].all (fun s =>
    let s1 := s.tryPush cfg64 'a'
    let s2 := s1.bind fun s => s.tryPushStr cfg64 ['b', 'c']
    let s3 := s2.bind fun s => s.tryPushFront cfg64 '_'
    shown s1 == some (['a'], true) && shown s2 == some (['a', 'b', 'c'], true) && shown s3 == some (['_', 'a', 'b', 'c'], true)) = true := by
  decide +kernel
/-- src/nominalstring.rs:568-591, 604-627, and the doc test at :24-35 -/
example :
    let init := List.replicate 62 'a'
    let borderline : Res (OutOfMemoryError × NStr) NStr := NStr.ofStr cfg64 init
    (shown borderline == some (init, true) &&
      shown (borderline.bind fun s => s.tryPush cfg64 'b') == some (init ++ ['b'], false) &&
      shown (borderline.bind fun s => s.tryPushStr cfg64 ['b']) == some (init ++ ['b'], false) &&
      shown (borderline.bind fun s => s.tryPushFront cfg64 'b') == some ('b' :: init, false)) = true := by decide +kernel

end Nominals.Tests
