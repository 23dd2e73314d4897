#!/usr/bin/env python3
"""Generates lean/Verif/Model/Tables.lean from the Rust sources (tables only)."""
import re
SRC = '/repo/src/'
def lean_char(c):
    o = ord(c)
    if c in "'\\": return "'\\" + c + "'"
    if 0x20 <= o < 0x7f: return f"'{c}'"
    assert o <= 0xffff
    return f"'\\u{o:04x}'"
def unescape(s):
    return re.sub(r'\\u\{([0-9A-Fa-f]+)\}', lambda m: chr(int(m.group(1), 16)), s)
def chars(body):
    out = []
    for m in re.finditer(r"'((?:\\u\{[0-9A-Fa-f]+\})|[^'])'", body):
        u = unescape(m.group(1)); assert len(u) == 1; out.append(u)
    return out
def line_of(text, pos): return text.count('\n', 0, pos) + 1
def fmt_list(items, per=8, ind='   '):
    rows = [', '.join(items[i:i+per]) for i in range(0, len(items), per)]
    return '[' + (',\n' + ind).join(rows) + ']'
o = []
o.append('import Verif.Model.Digital')
o.append('import Verif.Model.Enumerated')
o.append('import Verif.Model.Additive')
o.append('\n/-!\n# Symbol tables\n\nGenerated by `tools/gentables.py` from the Rust text; do not edit by hand.\n-/\n')
o.append('namespace Nominals\n')
dig = open(SRC + 'digital.rs').read()
names = []
for m in re.finditer(r'impl_digit_set!\(\s*((?:///[^\n]*\n\s*)*)(\w+),\s*DigitSet<(\d+), (true|false)> = DigitSet::(new|zeroless)\(\[(.*?)\]\)\s*\);', dig, re.S):
    name, n, hz, ctor, body = m.group(2), int(m.group(3)), m.group(4), m.group(5), m.group(6)
    cs = chars(body); assert len(cs) == n, (name, len(cs), n)
    assert (ctor == 'new') == (hz == 'true')
    a, b = line_of(dig, m.start()), line_of(dig, m.end())
    v = name[0].lower() + name[1:]
    o.append(f'/-- src/digital.rs:{a}-{b} the digits of `{name}`: {" ".join(cs)} -/')
    o.append(f'def {v}Digits : List Char :=\n  ' + fmt_list([lean_char(c) for c in cs], 10) + '\n')
    fn = 'digitSetNew' if ctor == 'new' else 'digitSetZeroless'
    o.append(f'/-- src/digital.rs:{a}-{b} `{name}`. -/')
    o.append(f'def {v} : DigitSys := .named (.{fn} {v}Digits)\n')
    names.append((name, v, n, hz))
def cjk(name):
    m = re.search(r'impl DigitCollection for ' + name + r' \{(.*?)\n\}', dig, re.S)
    body = m.group(1)
    ln = int(re.search(r'fn len\(&self\) -> usize \{\s*(\d+)', body).group(1))
    cs = chars(body[body.index('fn digit'):]); assert len(cs) == ln
    assert re.search(r'fn fixed\(&self\) -> bool \{\s*true', body)
    assert re.search(r'fn zero_based\(&self\) -> bool \{\s*false', body)
    assert re.search(r'fn has_zero_digit\(&self\) -> bool \{\s*false', body)
    assert 'type Fallback = CjkDecimal;' in body
    a, b = line_of(dig, m.start()), line_of(dig, m.end())
    v = name[0].lower() + name[1:]
    o.append(f'/-- src/digital.rs:{a}-{b} the symbols of `{name}`: {" ".join(cs)} -/')
    o.append(f'def {v}Digits : List Char :=\n  ' + fmt_list([lean_char(c) for c in cs], 10) + '\n')
    o.append(f'/-- src/digital.rs:{a}-{b} `{name}`: fixed, one-based, no zero digit, `Fallback = CjkDecimal`. -/')
    o.append(f'def {v} : DigitSys :=\n  .withFallback {{ fixed := true, hasZero := false, zeroBased := false, len := {ln}, digit := fun i => {v}Digits[i]? }}\n    cjkDecimal\n')
cjk('CjkHeavenlyStem'); cjk('CjkEarthlyBranch')
for name, low in (('HexUpper', 'letterUpper'), ('HexLower', 'letterLower')):
    L = 'LetterUpper' if low == 'letterUpper' else 'LetterLower'
    m = re.search(name + r',\s*Restrict<Chain<Decimal, ' + L + r'>> = Restrict::new\((\d+), Chain::new\(Decimal, ' + L + r'\)\)', dig)
    a, b = line_of(dig, m.start()), line_of(dig, m.end())
    v = name[0].lower() + name[1:]
    o.append(f'/-- src/digital.rs:{a}-{b} `{name}`. -/')
    o.append(f'def {v} : DigitSys := .named (.restrict {m.group(1)} (.chain decimal {low}))\n')
en = open(SRC + 'enumerated.rs').read()
for m in re.finditer(r'impl_enum_set! \{\s*((?:///[^\n]*\n\s*)*)(\w+), (new|zeroless), \[(.*?)\]', en, re.S):
    name, ctor, body = m.group(2), m.group(3), m.group(4)
    ss = [unescape(x) for x in re.findall(r'"([^"]*)"', body)]
    a, b = line_of(en, m.start()), line_of(en, m.end())
    v = name[0].lower() + name[1:]
    o.append(f'/-- src/enumerated.rs:{a}-{b} `{name}`: {" ".join(ss)} -/')
    o.append(f'def {v} : EnumSet where\n  hasZero := {"true" if ctor=="new" else "false"}\n  symbols := ' +
             fmt_list(['[' + ', '.join(lean_char(c) for c in s) + ']' for s in ss], 10, '    ') + '\n')
ad = open(SRC + 'additive.rs').read()
for m in re.finditer(r'NominalSystem<T> for (\w+)\nwhere.*?AdditiveSet::new\(\[(.*?)\]\)', ad, re.S):
    name, body = m.group(1), m.group(2)
    a, b = line_of(ad, m.start(2)), line_of(ad, m.end(2))
    ents = re.findall(r'\("([^"]*)",\s*([\d_]+)\)', body)
    v = name[0].lower() + name[1:]
    items = ['([' + ', '.join(lean_char(c) for c in unescape(s)) + '], ' + val.replace('_', '') + ')' for s, val in ents]
    o.append(f'/-- src/additive.rs:{a}-{b} the table of `{name}`: {" ".join(unescape(s) for s,_ in ents)} -/')
    o.append(f'def {v}Table : List (List Char × Nat) :=\n  ' + fmt_list(items, 4) + '\n')
    o.append(f'/-- src/additive.rs:{a}-{b} `{name}`. -/')
    o.append(f'def {v}TryFormat := additiveTryFormat {v}Table\n')
o.append('end Nominals')
open('/verif/lean/Verif/Model/Tables.lean', 'w').write('\n'.join(o) + '\n')
print([n[0] for n in names])
