#!/usr/bin/env python3
"""Asks Lean for the axioms of every property theorem and writes the list at the end of DESIGN.md."""
import glob, os, re, subprocess
here = os.path.dirname(os.path.abspath(__file__))
lean = os.path.join(here, "../lean")
names = []
for f in sorted(glob.glob(os.path.join(lean, "Verif/Props/*.lean"))):
    names += re.findall(r"^theorem (C\d+_[\w']*)", open(f).read(), re.M)
src = "import Verif\n" + "".join(f"#print axioms Elgas.{n}\n" for n in names)
tmp = "/tmp/axioms_query.lean"
open(tmp, "w").write(src)
out = subprocess.run(["lake", "env", "lean", tmp], cwd=lean, capture_output=True, text=True).stdout
out = re.sub(r"\s+", " ", out)
groups = {}
for n in names:
    m = re.search(r"'Elgas\.%s' (does not depend on any axioms|depends on axioms: \[([^\]]*)\])" % re.escape(n), out)
    assert m, n
    groups.setdefault(m.group(2) or "no axioms", []).append(n)
text = "<!-- axioms -->\n"
for g in sorted(groups, key=lambda g: -len(groups[g])):
    text += f"\n**{g}** ({len(groups[g])} theorems): " + ", ".join(f"`{n}`" for n in sorted(groups[g])) + "\n"
p = os.path.join(here, "../DESIGN.md")
s = open(p).read().split("<!-- axioms -->")[0]
open(p, "w").write(s + text)
print({g: len(v) for g, v in groups.items()})
