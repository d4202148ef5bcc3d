#!/usr/bin/env python3
"""Regenerates lean/Verif.lean (imports) and MANIFEST.json from the theorem names in lean/Verif/Props.

A theorem belongs to property Cnn if its name starts with `Cnn_`.  Status is "partial" if any theorem of the property
is named `*_partial` or `*_violated*`, unless tools/notes.json overrides it.
"""
import json, re, pathlib

root = pathlib.Path(__file__).resolve().parent.parent
lean = root / "lean"
mods = sorted(p.relative_to(lean).with_suffix("").as_posix().replace("/", ".") for p in (lean / "Verif").rglob("*.lean"))
(lean / "Verif.lean").write_text("".join(f"import {m}\n" for m in mods))

names = {}
for p in sorted((lean / "Verif").rglob("*.lean")):
    ns = []
    for line in p.read_text().splitlines():
        if m := re.match(r"namespace (\S+)", line):
            ns.append(m.group(1))
        elif m := re.match(r"end (\S+)", line):
            if ns and ns[-1] == m.group(1):
                ns.pop()
        elif m := re.match(r"theorem (C\d\d+_\w+)", line):
            names.setdefault(m.group(1).split("_")[0], []).append(".".join(ns + [m.group(1)]))
notes = json.loads((root / "tools/notes.json").read_text())
claims = []
for line in (root / "properties.jsonl").read_text().splitlines():
    if not line.strip():
        continue
    pid = json.loads(line)["id"]
    th = names.get(pid, [])
    note = notes.get(pid, {})
    if not th and "status" not in note:
        continue
    auto = "partial" if any("_partial" in t or "_violated" in t for t in th) else "proved"
    claims.append({"property": pid, "status": note.get("status", auto), "theorems": th, "note": note.get("note", "")})
(root / "MANIFEST.json").write_text(json.dumps({"claims": claims}, indent=1, ensure_ascii=False) + "\n")
known = {json.loads(l)["id"] for l in (root / "properties.jsonl").read_text().splitlines() if l.strip()}
print("claims", len(claims), "missing", sorted(known - {c["property"] for c in claims}))
print("orphan theorems", sorted(set(names) - known))
print("partial without note", [c["property"] for c in claims if c["status"] == "partial" and not c["note"]])
