"""Writes MANIFEST.json and lean/Verif.lean from the theorem names in lean/Verif/Props."""
import json, re, pathlib
root = pathlib.Path(__file__).resolve().parent.parent
notes = json.loads((root / "tools" / "notes.json").read_text())
props = [json.loads(l) for l in (root / "properties.jsonl").read_text().splitlines() if l.strip()]
thms = {}
for f in sorted((root / "lean" / "Verif" / "Props").glob("*.lean")):
    ns = re.search(r"^namespace (\S+)", f.read_text(), re.M).group(1)
    for m in re.finditer(r"^(?:private )?theorem ((C\d\d+)_\w+)", f.read_text(), re.M):
        thms.setdefault(m.group(2), []).append(ns + "." + m.group(1))
claims = []
for p in props:
    i = p["id"]
    ts = thms.get(i, [])
    n = notes.get(i, {})
    if isinstance(n, str):
        n = {"note": n}
    if not ts:
        print("no theorems yet:", i)
        continue
    part = any(t.endswith("_partial") for t in ts) or any(re.search(r"_false\w*$", t) for t in ts)
    status = n.get("status", "partial" if part else "proved")
    claims.append({"property": i, "status": status, "theorems": ts, "note": n.get("note", "")})
for i in thms:
    if i not in {p["id"] for p in props}:
        print("theorems without property:", i)
(root / "MANIFEST.json").write_text(json.dumps({"claims": claims}, indent=1) + "\n")
mods = sorted(str(f.relative_to(root / "lean"))[:-5].replace("/", ".") for f in (root / "lean" / "Verif").rglob("*.lean"))
(root / "lean" / "Verif.lean").write_text("".join(f"import {m}\n" for m in mods))
