#!/usr/bin/env python3
# Writes AXIOMS.md: the axioms every theorem of MANIFEST.json depends on. Run after `lake build`.
import json, os, re, subprocess, tempfile
root = os.path.dirname(os.path.dirname(os.path.abspath(__file__)))
names = sorted({t for c in json.load(open(root + "/MANIFEST.json"))["claims"] for t in c["theorems"]})
with tempfile.NamedTemporaryFile("w", suffix=".lean", delete=False) as f:
    f.write("import Verif\n" + "".join("#print axioms %s\n" % n for n in names))
out = subprocess.run(["lake", "env", "lean", f.name], cwd=root + "/lean", capture_output=True, text=True).stdout
os.unlink(f.name)
out = re.sub(r"\s+", " ", out)
with open(root + "/AXIOMS.md", "w") as g:
    g.write("# Axioms of the theorems in MANIFEST.json\n\nMade by `tools/axioms.py` from `#print axioms`.\n\n| theorem | axioms |\n|---|---|\n")
    for n, a in re.findall(r"'([^']+)' (?:depends on axioms: \[([^\]]*)\]|does not depend on any axioms)", out):
        g.write("| `%s` | %s |\n" % (n, a or "none"))
