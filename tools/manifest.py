"""Regenerates MANIFEST.json from the theorems in lean/Verif/Props and the status table below."""
import collections, glob, json, os, re

root = os.path.dirname(os.path.dirname(os.path.abspath(__file__)))
status = json.load(open(os.path.join(root, "tools", "status.json")))
theorems = collections.defaultdict(list)
for path in sorted(glob.glob(os.path.join(root, "lean/Verif/Props/*.lean"))):
    ns = []
    for line in open(path):
        m = re.match(r"namespace (\S+)", line)
        if m:
            ns.append(m.group(1))
            continue
        m = re.match(r"end (\S+)", line)
        if m and ns and ns[-1] == m.group(1):
            ns.pop()
            continue
        m = re.match(r"theorem (c(\d\d+)_\w+)", line)
        if m:
            theorems["C" + m.group(2)].append(".".join(ns + [m.group(1)]))
claims = []
for line in open(os.path.join(root, "properties.jsonl")):
    pid = json.loads(line)["id"]
    if pid in theorems or pid in status:
        st = status.get(pid, {})
        names = theorems.get(pid, [])
        default = "partial" if any(n.endswith("_partial") for n in names) else "proved"
        claims.append({"property": pid, "status": st.get("status", default),
                       "theorems": names, "note": st.get("note", "")})
json.dump({"claims": claims}, open(os.path.join(root, "MANIFEST.json"), "w"), indent=1)
print([(c["property"], c["status"], len(c["theorems"])) for c in claims])
