#!/usr/bin/env python3
"""Usage: addprop.py ID title statement quantifier why_tests_cant "anchor1;anchor2" -- append one property."""
import json, sys, os
p = os.path.join(os.path.dirname(os.path.abspath(__file__)), "..", "properties.jsonl")
i, t, s, q, w, a = sys.argv[1:7]
assert not any(json.loads(l)["id"] == i for l in open(p))
with open(p, "a") as f:
    f.write(json.dumps({"id": i, "title": t, "statement": s, "quantifier": q, "why_tests_cant": w,
                        "anchors": [x.strip() for x in a.split(";")]}) + "\n")
