"""Writes AXIOMS.md: the axioms of each theorem of MANIFEST.json. Needs a finished `lake build`."""
import json, os, re, subprocess, sys, tempfile
root = os.path.dirname(os.path.dirname(os.path.abspath(__file__)))
claims = json.load(open(os.path.join(root, "MANIFEST.json")))["claims"]
names = [t for c in claims for t in c["theorems"]]
with tempfile.NamedTemporaryFile("w", suffix=".lean", delete=False) as f:
    f.write("import Verif\n" + "".join(f"#print axioms {n}\n" for n in names))
out = subprocess.run(["lake", "env", "lean", f.name], cwd=os.path.join(root, "lean"),
                     capture_output=True, text=True).stdout
out = re.sub(r"\n\s+", " ", out)
axioms = {}
for m in re.finditer(r"'([^']*(?:'[^' ]*)*)' (does not depend on any axioms|depends on axioms: \[([^\]]*)\])", out):
    axioms[m.group(1)] = [a.strip() for a in (m.group(3) or "").split(",") if a.strip()]
missing = [n for n in names if n not in axioms]
assert not missing, missing
allowed = {"propext", "Classical.choice", "Quot.sound"}
bad = {n: a for n, a in axioms.items() if set(a) - allowed}
assert not bad, bad
with open(os.path.join(root, "AXIOMS.md"), "w") as f:
    f.write("# Axioms of each theorem\n\nWritten by `tools/axioms.py` from `#print axioms`.\n")
    for c in sorted(claims, key=lambda c: c["property"]):
        f.write(f"\n## {c['property']}\n\n")
        for t in c["theorems"]:
            f.write(f"* `{t}`: {', '.join(sorted(axioms[t])) or 'none'}\n")
print(len(names), "theorems")
