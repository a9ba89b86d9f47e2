"""Write MANIFEST.json: collect theorems named Cnn_* from lean/Verif/Props/*.lean, notes from tools/notes.py."""
import glob, json, os, re
here = os.path.dirname(os.path.abspath(__file__))
root = os.path.dirname(here)
ns = {}
exec(open(os.path.join(here, "notes.py")).read(), ns)
NOTES = ns["NOTES"]  # id -> (status, note)
thms = {}
for fn in sorted(glob.glob(os.path.join(root, "lean/Verif/Props/*.lean"))):
    txt = open(fn).read()
    for m in re.finditer(r"^theorem (C(\d\d+)_\w+)", txt, re.M):
        thms.setdefault("C" + m.group(2), []).append(m.group(1))
claims = []
for line in open(os.path.join(root, "properties.jsonl")):
    pid = json.loads(line)["id"]
    t = thms.get(pid, [])
    status, note = NOTES.get(pid, ("proved", ""))
    if not t:
        status, note = "partial", "no theorem yet"
        if pid in NOTES and NOTES[pid][0] == "not_applicable":
            status, note = NOTES[pid]
    elif pid not in NOTES and any(x.endswith("_partial") for x in t):
        status = "partial"
    claims.append({"property": pid, "status": status, "theorems": t, "note": note})
json.dump({"claims": claims}, open(os.path.join(root, "MANIFEST.json"), "w"), indent=1)
print(len(claims), "claims;", sum(len(c["theorems"]) for c in claims), "theorems;",
      "missing:", [c["property"] for c in claims if not c["theorems"]])
