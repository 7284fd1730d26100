"""Writes MANIFEST.json: every theorem of Verif/Props named Cnn_... is listed under property Cnn.

`_partial` and `_refuted` theorems make a property "partial" unless STATUS says otherwise.
"""
import json, re, pathlib

root = pathlib.Path(__file__).resolve().parent.parent
NOTES = json.loads((root / "tools" / "notes.json").read_text())
theorems = {}
for f in sorted((root / "lean" / "Verif" / "Props").glob("*.lean")):
    for name in re.findall(r"^(?:protected )?theorem (C\d+_[\w'.]+)", f.read_text(), re.M):
        theorems.setdefault(name.split("_")[0], []).append("Chf.Props." + name)
claims = []
for line in (root / "properties.jsonl").read_text().splitlines():
    pid = json.loads(line)["id"]
    if pid not in theorems:
        continue
    names = theorems[pid]
    weak = any("_partial" in n or "_refuted" in n for n in names)
    note = NOTES.get(pid, {})
    claims.append({
        "property": pid,
        "status": note.get("status", "partial" if weak else "proved"),
        "theorems": names,
        "note": note.get("note", ""),
    })
(root / "MANIFEST.json").write_text(json.dumps({"claims": claims}, indent=1) + "\n")
print(len(claims), "claims,", sum(len(c["theorems"]) for c in claims), "theorems;",
      [c["property"] for c in claims if c["status"] == "partial"])
