#!/usr/bin/env python3
"""Check that every anchor of properties.jsonl names a file of /repo and a symbol in it."""
import json, os, re

bad = 0
for line in open(os.path.join(os.path.dirname(__file__), "..", "properties.jsonl")):
    p = json.loads(line)
    for a in p["anchors"]:
        path, _, sym = a.partition(":")
        full = os.path.join("/repo", path)
        if not os.path.exists(full):
            print(p["id"], a, "no file"); bad += 1; continue
        name = sym.split(".")[-1]
        if sym and not re.search(r"\b" + re.escape(name) + r"\b", open(full).read()):
            print(p["id"], a, "no symbol"); bad += 1
print("bad anchors:", bad)
