#!/usr/bin/env python3
# Generates /verif/MANIFEST.json from the table below.
import json, os
C = {}
def claim(pid, status, theorems, note=""):
    C[pid] = dict(property=pid, status=status, theorems=theorems, note=note)
exec(open(os.path.join(os.path.dirname(__file__), "claims.py")).read())
ids = [json.loads(l)["id"] for l in open("/verif/properties.jsonl")]
out = [C[i] for i in ids if i in C]
json.dump({"claims": out}, open("/verif/MANIFEST.json", "w"), indent=1)
print(len(out), "claims;", "missing:", [i for i in ids if i not in C])
ths = []
for c in out:
    for t in c["theorems"]:
        if t not in ths: ths.append(t)
mods = [l for l in open("/verif/lean/Verif.lean").read().split("\n") if l.startswith(("import Verif.Props", "import Verif.Conformance.Exact", "import Verif.Instances.Attain"))]
open("/verif/lean/Verif/Audit.lean", "w").write("\n".join(mods) + "\n/-\nGenerated by tools/gen_manifest.py: prints the axioms of every theorem of MANIFEST.json.\n-/\n" +
    "\n".join("#print axioms " + t for t in ths) + "\n")
