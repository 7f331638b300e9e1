"""Writes MANIFEST.json: theorem names are collected from lean/Verif/Props, statuses and notes from STATUS."""
import re, json, glob, os
root = os.path.join(os.path.dirname(os.path.abspath(__file__)), "..")
thms = {}
for f in sorted(glob.glob(root + "/lean/Verif/Props/*.lean")):
    for m in re.finditer(r"^theorem (C(\d+)_\w+)", open(f).read(), re.M):
        thms.setdefault("C" + m.group(2), []).append("PdfReader." + m.group(1))
exec(open(root + "/tools/status.py").read())
claims = []
for l in open(root + "/properties.jsonl"):
    i = json.loads(l)["id"]
    if i in STATUS and i in thms:
        st, note = STATUS[i]
        claims.append({"property": i, "status": st, "theorems": thms[i], "note": note})
    elif i in STATUS and STATUS[i][0] == "not_applicable":
        claims.append({"property": i, "status": "not_applicable", "theorems": [], "note": STATUS[i][1]})
json.dump({"claims": claims}, open(root + "/MANIFEST.json", "w"), indent=1)
print(len(claims), [i for i in thms if i not in STATUS])
