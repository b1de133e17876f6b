#!/usr/bin/env python3
"""Rewrites section 5 of DESIGN.md with the axioms of every theorem named in MANIFEST.json."""
import json, os, re, subprocess, tempfile
V = os.path.dirname(os.path.dirname(os.path.abspath(__file__)))
names = [t for c in json.load(open(V + "/MANIFEST.json"))["claims"] for t in c["theorems"]]
with tempfile.NamedTemporaryFile("w", suffix=".lean", delete=False) as f:
    f.write("import Verif\n" + "".join("#print axioms %s\n" % n for n in names))
out = subprocess.run(["lake", "env", "lean", f.name], cwd=V + "/lean", capture_output=True, text=True).stdout
groups = {}
for line in re.sub(r"\n\s+", " ", out).splitlines():
    m = re.match(r"'(\S+)' (?:depends on axioms: \[(.*)\]|does not depend on any axioms)", line)
    groups.setdefault(m.group(2) or "none", []).append(m.group(1).replace("EDTF.", ""))
assert sum(map(len, groups.values())) == len(names), out
txt = "## 5. Axioms per theorem\n\nOutput of `#print axioms` for the theorems of MANIFEST.json, grouped (`python3 tools/axioms.py`).\n\n"
for g in sorted(groups, key=lambda g: len(g)):
    txt += "- **%s** (%d theorems): %s\n" % (g if g == "none" else "`" + g + "`", len(groups[g]), ", ".join(groups[g]))
s = open(V + "/DESIGN.md").read()
i = s.find("## 5. Axioms per theorem")
s = (s if i < 0 else s[:i]).rstrip("\n") + "\n\n" + txt
open(V + "/DESIGN.md", "w").write(s)
