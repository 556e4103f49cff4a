"""Writes AXIOMS.md: the axioms each property theorem depends on, as printed by Lean."""
import json, os, re, subprocess
names = [t for c in json.load(open("/verif/MANIFEST.json"))["claims"] for t in c["theorems"]]
full = [n if n.startswith("Velato") else "Velato." + n for n in names]
src = "import Verif\n" + "".join("#print axioms %s\n" % n for n in full)
open("/tmp/ax.lean", "w").write(src)
out = subprocess.run(["lake", "env", "lean", "/tmp/ax.lean"], cwd="/verif/lean",
                     capture_output=True, text=True).stdout
groups = {}
for m in re.finditer(r"'Velato\.(\S+)' (does not depend on any axioms|depends on axioms: \[([^\]]*)\])", out):
    key = m.group(3) or "none"
    key = ", ".join(sorted(x.strip() for x in key.replace("\n", " ").split(",")))
    groups.setdefault(key, []).append(m.group(1))
assert sum(len(g) for g in groups.values()) == len(full), (len(full), out[-2000:])
with open("/verif/AXIOMS.md", "w") as f:
    f.write("# Axioms of the property theorems\n\nGenerated by `tools/axioms.py` from `#print axioms`.\n")
    for key in sorted(groups):
        f.write("\n## %s\n\n" % key)
        f.write(", ".join("`%s`" % n for n in groups[key]) + "\n")
print({k: len(v) for k, v in groups.items()})
