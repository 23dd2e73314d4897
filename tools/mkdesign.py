"""Fill the axiom table of DESIGN.md from the output of `#print axioms` style queries (see the end of DESIGN.md for how)."""
import re, sys

rows = {}
for line in open(sys.argv[1]):
    m = re.match(r"AX (C\d\d+_\w+) \[(.*)\]", line)
    if m:
        rows.setdefault(m.group(2), []).append(m.group(1))
text = ""
for key in sorted(rows, key=len):
    names = sorted(rows[key])
    if key == "propext, Classical.choice, Quot.sound":
        text += f"* `propext`, `Classical.choice`, `Quot.sound`: the remaining {len(names)} theorems.\n"
    else:
        label = ", ".join(f"`{k}`" for k in key.split(", ")) if key else "no axiom"
        text += f"* {label}: " + ", ".join(f"`{n}`" for n in names) + ".\n"
p = "/verif/DESIGN.md"
s = open(p).read()
a, b = s.index("<!-- axioms -->"), s.index("<!-- end axioms -->")
open(p, "w").write(s[:a] + "<!-- axioms -->\n" + text + s[b:])
