"""Applies seeded bugs to a scratch copy of the model and records which theorems fail.

usage: mutate.py round.json   (a list of {file, old, new, definition, edit, claim})
The log is appended to seeded/LOG.jsonl. Nothing in lean/ is changed. The environment variable SRC
is the directory with the model, if it isn't lean/.
"""
import json, os, re, shutil, subprocess, sys
root = os.path.dirname(os.path.dirname(os.path.abspath(__file__)))
scratch = os.environ.get("MUT", "/tmp/mut")
src = os.environ.get("SRC", os.path.join(root, "lean"))
if not os.path.isdir(scratch):
    shutil.copytree(src, scratch, symlinks=True)

def sync():
    subprocess.run(["rsync", "-a", "--delete", "--exclude", ".lake", src + "/", scratch + "/"], check=False) \
        if shutil.which("rsync") else None
    if not shutil.which("rsync"):
        shutil.rmtree(os.path.join(scratch, "Verif"))
        shutil.copytree(os.path.join(src, "Verif"), os.path.join(scratch, "Verif"))
        shutil.copy(os.path.join(src, "Verif.lean"), scratch)

def decl_at(path, line):
    """Name of the declaration that contains the line."""
    name = None
    for i, l in enumerate(open(path), 1):
        m = re.match(r"\s*(?:@\[.*?\]\s*)?(?:private |protected |noncomputable )*(theorem|def|example|instance|lemma)\s*(\S+)?", l)
        if m:
            name = m.group(2) if m.group(1) != "example" else "example"
        if i >= line:
            break
    return name

def build():
    failed, broken = [], []
    p = subprocess.run(["lake", "build"], cwd=scratch, capture_output=True, text=True)
    out = p.stdout + p.stderr
    for m in re.finditer(r"error: (Verif/\S+?\.lean):(\d+):", out):
        d = decl_at(os.path.join(scratch, m.group(1)), int(m.group(2)))
        if d and d not in failed:
            failed.append(d)
    return p.returncode, failed, out

def missing(failed):
    """Property theorems of modules that could not be built because of a failed import."""
    return []

for mut in json.load(open(sys.argv[1])):
    sync()
    path = os.path.join(scratch, "Verif", mut["file"])
    s = open(path).read()
    if s.count(mut["old"]) < 1:
        print("NOT FOUND", mut["definition"], mut["old"]); continue
    s = s.replace(mut["old"], mut["new"], 1)
    open(path, "w").write(s)
    code, failed, out = build()
    print(("killed  " if code else "SURVIVED"), mut["definition"], "|", mut["edit"], "|", failed[:6], flush=True)
    if code and not failed:
        print(out[-600:])
    r = {"definition": mut["definition"], "edit": mut["edit"], "breaks": mut["claim"],
         "failed": failed, "tightened": mut.get("tightened", [])}
    if failed or os.environ.get("KEEP"):
        with open(os.path.join(root, "seeded", "LOG.jsonl"), "a") as f:
            f.write(json.dumps(r) + "\n")
sync()
