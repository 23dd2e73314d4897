#!/usr/bin/env python3
"""Generates lean/Verif/Tests/Replay.lean: recorded outputs of the crate (src/previews/*.md, which are written
by examples/previews.rs, and the assertions of its unit tests) replayed against the model."""
import re, os, glob
P = '/repo/src/previews/'
def lc(c):
    o = ord(c)
    if c in "'\\": return "'\\" + c + "'"
    if 0x20 <= o < 0x7f: return f"'{c}'"
    assert o <= 0xffff
    return f"'\\u{o:04x}'"
def txt(s): return '[' + ', '.join(lc(c) for c in s) + ']'
prev = open('/repo/examples/previews.rs').read()
listed = re.findall(r'preview\(&(?:DigitPreview\()?(\w+)', prev)
o = ['import Verif.Model.Lib', '',
'/-!\n# Recorded outputs replayed against the model\n\nGenerated by `tools/gentests.py`. These are tests of the model (evidence that it is the code\'s behaviour), not\nproofs of any property: the tables of src/previews/*.md, written by examples/previews.rs, and the `assert_eq!`s of\nthe unit tests and doc tests.\n-/', '',
'namespace Nominals.Tests', '',
'/-- The 64-bit `alloc` build the recorded outputs come from. -/', 'def cfg64 : Cfg := ⟨true, .w64⟩', '',
'/-- `n.to_nominal(&system) == expected`. -/',
'def shows (s : NominalSystem) (T : IntTy) (n : Nat) (expected : List Char) : Bool :=',
'  match s.format cfg64 T n with', '  | .ok r => r.asStr == some expected', '  | _ => false', '',
'def allShow (s : NominalSystem) (T : IntTy) (l : List (Nat × List Char)) : Bool :=', '  l.all fun p => shows s T p.1 p.2', '']
def sysname(n):
    m = {'SimplifiedChineseInformal': '(Named.chinese .simplifiedInformal {})', 'SimplifiedChineseFormal': '(Named.chinese .simplifiedFormal {})',
         'TraditionalChineseInformal': '(Named.chinese .traditionalInformal {})', 'TraditionalChineseFormal': '(Named.chinese .traditionalFormal {})'}
    return m.get(n, 'Named.' + n[0].lower() + n[1:]) + '.system'
total = 0
for name in listed:
    f = P + name + '.md'
    if not os.path.exists(f): print('missing', f); continue
    rows = []
    for l in open(f):
        m = re.match(r'\| (\d+) *\| (.*?) *\|$', l.rstrip('\n'))
        if m: rows.append((int(m.group(1)), m.group(2)))
    # trailing blanks of a cell are padding, except for the blank in ArmenianUpper's symbol for 1
    if name == 'ArmenianUpper':
        rows = [(n, s + ' ' if n % 10 == 1 else s) for n, s in rows]
    total += len(rows)
    o.append(f'/-- src/previews/{name}.md -/')
    o.append(f'example : allShow {sysname(name)} .u32\n    [' + ',\n     '.join(f'({n}, {txt(s)})' for n, s in rows) + '] = true := by decide +kernel\n')
ch = open('/repo/src/chinese.rs').read()
cases = [10,12,100,103,1000,1006,1010,1011,1100,1011,10000,100001,100000,110001,10**8,10**8+1,10**16,11111,1010000000000,7400000000000,9384634633700000000*10**8,2**128-1]
cases[20] = int('938463463370000000000000000')  # 938_4634_6337_0000_0000_0000_0000
cases[18] = int('1_0100_0000_0000'.replace('_','')); cases[19] = int('7_4000_0000_0000'.replace('_',''))
cases[20] = int('938_4634_6337_0000_0000_0000_0000'.replace('_',''))
for m in re.finditer(r'fn (\w+)\(\) \{\s*test_formatting\(\s*&(\w+)::default\(\)(.*?),\s*&\[(.*?)\],', ch, re.S):
    fn, ty, opts, body = m.groups()
    exp = re.findall(r'"([^"]*)"', body); assert len(exp) == len(cases)
    k = {'SimplifiedChineseInformal': '.simplifiedInformal', 'TraditionalChineseInformal': '.traditionalInformal'}[ty]
    opt = 'ChineseOptions.mk .ordinary .myriad'
    opt = '({} : ChineseOptions)'
    for w in re.findall(r'\.(\w+)\(\)', opts):
        opt += '.' + {'financial': 'financial', 'short_scale': 'shortScale', 'mid_scale': 'midScale', 'long_scale': 'longScale'}[w]
    s = f'(Named.chinese {k} {opt}).system'
    rows, errs = [], []
    for n, e in zip(cases, exp):
        if 'short_scale' in opts and n >= 10**15: errs.append(n)
        else: rows.append((n, e))
    total += len(cases)
    o.append(f'/-- src/chinese.rs test `{fn}` -/')
    o.append(f'example : allShow {s} .u128\n    [' + ',\n     '.join(f'({n}, {txt(t)})' for n, t in rows) + '] = true := by decide +kernel\n')
    for n in errs:
        o.append(f'example : {s}.tryFormat cfg64 .u128 {n} = .err (.outOfBounds {n}) := by decide +kernel\n')
T = {'u8': '.u8', 'u32': '.u32', 'u64': '.u64'}
for f in ('additive', 'digital', 'ethiopic', 'hebrew'):
    t = open(f'/repo/src/{f}.rs').read()
    o.append(f'/-! Assertions of src/{f}.rs -/\n')
    for m in re.finditer(r'assert_eq!\((0x)?([\da-f_]+)_(u\d+)\.to_nominal\(&(\w+)\), "([^"]*)"\)', t):
        n = int(m.group(2).replace('_', ''), 16 if m.group(1) else 10); total += 1
        o.append(f'example : shows {sysname(m.group(4))} {T[m.group(3)]} {n} {txt(m.group(5))} = true := by decide +kernel')
    for m in re.finditer(r'assert_eq!\((\w+)((?:\.one_based\(\))?)\.format_nominal\((0x)?([\da-f_]+)_(u\d+)\), "([^"]*)"\)', t):
        n = int(m.group(4).replace('_', ''), 16 if m.group(3) else 10); total += 1
        s = sysname(m.group(1))
        if m.group(2): s = f'(DigitSys.oneBased Nominals.{m.group(1)[0].lower()+m.group(1)[1:]}).system'
        o.append(f'example : shows {s} {T[m.group(5)]} {n} {txt(m.group(6))} = true := by decide +kernel')
    o.append('')
o.append('''/-- src/hebrew.rs:84 -/
example : Named.hebrew.system.tryFormat cfg64 .u32 0 = .err .noZeroSymbol := by decide +kernel
/-- src/digital.rs:694-697 -/
example : (DigitSys.oneBased letterLower).system.tryFormat cfg64 .u8 0 = .err .noZeroSymbol := by decide +kernel
''')
o.append('''/-- examples/basics.rs:9-26 -/
example : shows Named.decimal.system .u32 0 ['0'] && allShow Named.letterLower.system .u32 [(0, ['a']), (1, ['b']), (26, ['a', 'a'])] &&
    allShow (DigitSys.oneBased letterLower).system .u32 [(1, ['a']), (2, ['b']), (27, ['a', 'a']), (0, ['0'])] = true := by decide +kernel
/-- examples/basics.rs:22-25 -/
example : tryToNominal cfg64 .u32 0 (DigitSys.oneBased letterLower).system = .err .noZeroSymbol := by decide +kernel
/-- src/lib.rs:88-96 test `boxing` -/
example : shows Named.romanUpper.system.boxed .u32 1 ['I'] = true := by decide +kernel

/-- The string after a call: its text and whether it is inline. -/
def shown {ε : Type} : Res ε NStr → Option (List Char × Bool)
  | .ok s => s.asStr.map fun t => (t, s.isInline)
  | _ => none

/-- src/nominalstring.rs:558-566, 594-602 tests `forward_ops`, `reverse_ops` -/
example : [NStr.new, NStr.newReverse].all (fun s =>
    let s1 := s.tryPush cfg64 'a'
    let s2 := s1.bind fun s => s.tryPushStr cfg64 ['b', 'c']
    let s3 := s2.bind fun s => s.tryPushFront cfg64 '_'
    shown s1 == some (['a'], true) && shown s2 == some (['a', 'b', 'c'], true) && shown s3 == some (['_', 'a', 'b', 'c'], true)) = true := by
  decide +kernel
/-- src/nominalstring.rs:568-591, 604-627, and the doc test at :24-35 -/
example :
    let init := List.replicate 62 'a'
    let borderline : Res (OutOfMemoryError × NStr) NStr := NStr.ofStr cfg64 init
    (shown borderline == some (init, true) &&
      shown (borderline.bind fun s => s.tryPush cfg64 'b') == some (init ++ ['b'], false) &&
      shown (borderline.bind fun s => s.tryPushStr cfg64 ['b']) == some (init ++ ['b'], false) &&
      shown (borderline.bind fun s => s.tryPushFront cfg64 'b') == some ('b' :: init, false)) = true := by decide +kernel
''')
o.append('end Nominals.Tests')
os.makedirs('/verif/lean/Verif/Tests', exist_ok=True)
open('/verif/lean/Verif/Tests/Replay.lean', 'w').write('\n'.join(o) + '\n')
print(total)
