#!/usr/bin/env python3
"""Generates lean/Verif/Tests/Previews.lean: every table of src/previews/*.md, with its padding, and every entry of
src/previews/index.md, replayed against the model of examples/previews.rs."""
import re
P = '/repo/src/previews/'
def lc(c):
    o = ord(c)
    if c in "'\\": return "'\\" + c + "'"
    if c == '\n': return "'\\n'"
    if 0x20 <= o < 0x7f: return f"'{c}'"
    assert o <= 0xffff
    return f"'\\u{o:04x}'"
def txt(s): return '[' + ', '.join(lc(c) for c in s) + ']'
prev = open('/repo/examples/previews.rs').read()
listed = re.findall(r'preview\(&(DigitPreview\()?(\w+)', prev)
def lower(n): return n[0].lower() + n[1:]
def sysname(n):
    m = {'SimplifiedChineseInformal': '(Named.chinese .simplifiedInformal {})', 'SimplifiedChineseFormal': '(Named.chinese .simplifiedFormal {})',
         'TraditionalChineseInformal': '(Named.chinese .traditionalInformal {})', 'TraditionalChineseFormal': '(Named.chinese .traditionalFormal {})'}
    return m.get(n, 'Named.' + lower(n)) + '.system'
fns = {f: v for f, v in re.findall(r'fn (\w+_values)\(\) -> Vec<u32> \{\s*vec!\[(.*?)\]', prev, re.S)}
def values(n):
    m = re.search(r'impl Previewable for ' + n + r' \{\s*fn preview_values\(&self\) -> Vec<u32> \{\s*(.*?)\s*\}', prev, re.S).group(1)
    if m.endswith('_values()'): v = fns[m[:-2]]
    elif m.startswith('vec!'): v = m[5:-1]
    else: assert m == '(1..=10).collect()', m; v = ','.join(map(str, range(1, 11)))
    return [int(x.replace('_', '')) for x in v.split(',') if x.strip()]
index = {}
for l in open(P + 'index.md'):
    m = re.match(r'- \[`(\w+)`\]\(\S*\): (.*)\n?$', l)
    if m: index[m.group(1)] = m.group(2)
o = ['import Verif.Model.Previews', 'import Verif.Tests.Replay', '',
'/-!\n# The tables of the documentation replayed against the model of examples/previews.rs\n\nGenerated by `tools/genpreviews.py`. Tests of the model, not proofs: src/previews/*.md with all blanks, and src/previews/index.md.\n-/', '',
'namespace Nominals.Tests', '',
'/-- Terminal cells of the characters that occur: 2 for East-Asian wide characters, 0 for combining ones, else 1. -/',
'def cellsOf (t : List Char) : Nat :=',
'  (t.map fun c => let n := c.toNat',
'    if n == 0x305 then 0 else if (0x1100 ≤ n && n < 0x1160) || (0x3000 ≤ n && n < 0xA000 && !(0x3248 ≤ n && n < 0x3250)) || (0xAC00 ≤ n && n < 0xD7B0) then 2 else 1).sum', '',
'/-- `preview` prints these lines and returns this entry. -/',
'def printed (name : List Char) (s : NominalSystem) (values : Res Empty (List Nat)) (lines : List (List Char)) (index : List Char) : Bool :=',
'  values.bind (preview cfg64 cellsOf name s) == .ok (lines, index)', '']
for digit, name in listed:
    L = open(P + name + '.md').read().split('\n')
    assert L[0] == '# ' + name and L[1] == '' and L[-1] == ''
    lines = [l + '\n' for l in L[2:-1]]
    vals = f'(previewValues cfg64 (Nominals.{lower(name)}.level 0))' if digit else f'(.ok {values(name)})'
    o.append(f'/-- src/previews/{name}.md -/')
    o.append(f'example : printed {txt(name)} {sysname(name)}\n    {vals}\n    [' + ',\n     '.join(txt(l) for l in lines) + f']\n    {txt(index[name])} = true := by decide +kernel\n')
o.append('end Nominals.Tests')
open('/verif/lean/Verif/Tests/Previews.lean', 'w').write('\n'.join(o) + '\n')
print(len(listed))
