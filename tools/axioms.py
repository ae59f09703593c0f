# Lists the axioms of every theorem of MANIFEST.json (run in /verif/lean after `lake build`): python3 ../tools/axioms.py
import json, os, subprocess, re, tempfile
here = os.path.dirname(os.path.abspath(__file__))
names = sorted({t for c in json.load(open(os.path.join(here, "..", "MANIFEST.json")))["claims"] for t in c["theorems"]})
with tempfile.NamedTemporaryFile("w", suffix=".lean", delete=False) as f:
    f.write("import Verif\n" + "".join("#print axioms %s\n" % n for n in names))
out = subprocess.run(["lake", "env", "lean", f.name], cwd=os.path.join(here, "..", "lean"), capture_output=True, text=True).stdout
out = out.replace("\n  ", " ")
groups = {}
for l in out.split("\n"):
    m = re.match(r"'(.*)' depends on axioms: \[(.*)\]", l)
    n = re.match(r"'(.*)' does not depend on any axioms", l)
    if m: groups.setdefault(m.group(2), []).append(m.group(1))
    elif n: groups.setdefault("none", []).append(n.group(1))
for k, v in sorted(groups.items()):
    print("%d theorems: %s" % (len(v), k))
    if len(v) < 40: print("   " + ", ".join(v))
print("missing:", set(names) - {x for v in groups.values() for x in v})
