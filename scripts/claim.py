#!/usr/bin/env python3
"""Usage: claim.py C01 proved "Thm1,Thm2" "note"  -- insert or replace one claim of MANIFEST.json."""
import json, sys, os
p = os.path.join(os.path.dirname(os.path.abspath(__file__)), "..", "MANIFEST.json")
m = json.load(open(p))
cid, status, thms, note = sys.argv[1:5]
m["claims"] = [c for c in m["claims"] if c["property"] != cid]
m["claims"].append({"property": cid, "status": status, "theorems": [t.strip() for t in thms.split(",") if t.strip()], "note": note})
m["claims"].sort(key=lambda c: c["property"])
json.dump(m, open(p, "w"), indent=1)
