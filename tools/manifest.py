"""Generate MANIFEST.json from the table below: property -> (status, theorems, note)."""
import json, os
C = {}
def claim(pid, status, theorems, note):
    C[pid] = {"property": pid, "status": status,
              "theorems": ["Xacml." + t for t in theorems.split()], "note": note}

exec(open(os.path.join(os.path.dirname(__file__), "claims.py")).read())
out = {"claims": [C[k] for k in sorted(C)]}
json.dump(out, open(os.path.join(os.path.dirname(__file__), "..", "MANIFEST.json"), "w"), indent=1)
print(len(C), "claims")
