"""mutate.py MUTFILE: each JSON line {"file","old","new","def","edit","claim","tightened"?} is applied to a
scratch copy of lean/, rebuilt, and the failing declarations are appended to seeded/LOG.jsonl."""
import sys, json, os, re, subprocess, shutil
root = os.path.abspath(os.path.join(os.path.dirname(os.path.abspath(__file__)), ".."))
scratch = "/tmp/mut/lean"
src = sys.argv[2] if len(sys.argv) > 2 else root + "/lean"
def declat(path, line):
    ls = open(path).read().split("\n")[:line]
    for l in reversed(ls):
        m = re.match(r"(?:private |@\[.*\] )?(theorem|def|example|instance|inductive|structure)\s*([^\s:(\[{]*)", l)
        if m: return m.group(2) or m.group(1)
    return "?"
os.makedirs("/tmp/mut", exist_ok=True)
for l in open(sys.argv[1]):
    if not l.strip(): continue
    m = json.loads(l)
    subprocess.run("rm -rf /tmp/mut/lean && cp -a " + src + " /tmp/mut/lean", shell=True, check=True)
    p = scratch + "/Verif/" + m["file"]
    s = open(p).read()
    if s.count(m["old"]) < 1: print("NOT FOUND", m); continue
    s = s.replace(m["old"], m["new"], 1) if not m.get("all") else s.replace(m["old"], m["new"])
    open(p, "w").write(s)
    r = subprocess.run(["lake", "build"], cwd=scratch, capture_output=True, text=True)
    out = r.stdout + r.stderr
    failed = []
    for e in re.finditer(r"error: (Verif/\S+?):(\d+):", out):
        d = e.group(1)[6:-5] + ":" + declat(scratch + "/" + e.group(1), int(e.group(2)))
        if d not in failed: failed.append(d)
    mods = re.findall(r"^- (Verif\S*)", out, re.M)
    ok = sorted(set(re.findall(r"Built (Verif\.Props\.\S+)", out)))
    rec = {"definition": m["def"], "edit": m["edit"], "claim": m["claim"], "failed": failed, "modules_failed": mods, "rebuilt_fine": ok, "tightened": m.get("tightened", [])}
    print(json.dumps(rec)[:600])
    if r.returncode == 0: print("   !!!! SURVIVED"); rec["survived"] = True
    open(root + "/seeded/LOG.jsonl", "a").write(json.dumps(rec) + "\n")
