"""Applies seeded bugs to a scratch copy of the model and records which theorems fail.

usage: mutate.py BATCH.json   (list of {"file","old","new","definition","edit","claim"})
A mutant is killed when some theorem no longer proves. Files that import a failing module
are not rebuilt by lake, so the failing theorems listed are the first to break.
"""
import json, os, re, subprocess, sys
SRC, DST = "/verif/lean", "/tmp/mut"
env = dict(os.environ, PATH="/app/lean4-4.33.0/build/release/stage1/bin:" + os.environ["PATH"])

def failing(log):
    out = []
    for m in re.finditer(r"error: (Verif/\S+\.lean):(\d+):", log):
        f, n = m.group(1), int(m.group(2))
        lines = open(f"{DST}/{f}").read().split("\n")[:n]
        # An error reported at the start of a declaration belongs to that declaration.
        name = None
        for l in reversed(lines):
            k = re.match(r"\s*(?:@\[[^\]]*\]\s*)?(?:private )?(theorem|def|example|instance)\b\s*(\S*)", l)
            if k:
                name = k.group(2) if k.group(1) in ("theorem", "def") else f"{k.group(1)} at {f}:{n}"
                break
        if name and name not in out:
            out.append(name)
    return out

# A snapshot, so that work can go on in the source while the batch runs.
SNAP = "/tmp/mutsrc"
subprocess.run(["rm", "-rf", SNAP], check=True)
subprocess.run(["cp", "-a", SRC, SNAP], check=True)
batch = json.load(open(sys.argv[1]))
for b in batch:
    subprocess.run(["rm", "-rf", DST], check=True)
    subprocess.run(["cp", "-a", SNAP, DST], check=True)
    p = f"{DST}/Verif/{b['file']}"
    s = open(p).read()
    if s.count(b["old"]) < 1:
        print("NOT FOUND", b["old"]); continue
    open(p, "w").write(s.replace(b["old"], b["new"], 1))
    # -KeepGoing is lake's default: independent modules are still built.
    try:
        r = subprocess.run(["lake", "build"], cwd=DST, env=env, capture_output=True, text=True, timeout=2400)
        log = r.stdout + r.stderr
        fails = failing(log)
        if r.returncode != 0 and not fails:
            fails = ["(build failed) " + log[-300:]]
    except subprocess.TimeoutExpired:
        fails = ["(timeout)"]
    rec = {"definition": b["definition"], "edit": b["edit"], "claim": b["claim"],
           "failed": fails, "tightened": b.get("tightened", [])}
    print("KILLED" if fails else "SURVIVED", b["definition"], "|", b["edit"], "|", fails[:4], flush=True)
    with open("/verif/seeded/LOG.jsonl", "a") as f:
        f.write(json.dumps(rec) + "\n")
