"""Appends a property to properties.jsonl: addprop.py < json"""
import json, os, sys
root = os.path.dirname(os.path.dirname(os.path.abspath(__file__)))
path = os.path.join(root, "properties.jsonl")
have = {json.loads(l)["id"] for l in open(path)}
with open(path, "a") as f:
    for p in json.load(sys.stdin):
        assert set(p) == {"id", "title", "statement", "quantifier", "why_tests_cant", "anchors"}, p
        assert p["id"] not in have, p["id"]
        f.write(json.dumps(p) + "\n")
