#!/usr/bin/env python3
"""Write MANIFEST.json and lean/Verif/Audit.lean.

The theorems of property Cnn are the theorems in lean/Verif/Props whose name starts with Cnn_.
Statuses and notes come from manifest_notes.py.
"""
import json, pathlib, re
from manifest_notes import NOTES

root = pathlib.Path(__file__).resolve().parent.parent
thms = {}
for f in sorted((root / "lean/Verif/Props").glob("*.lean")):
    ns = []
    for line in f.read_text().splitlines():
        m = re.match(r"namespace (\S+)", line)
        if m:
            ns.append(m.group(1))
        m = re.match(r"end (\S+)", line)
        if m and ns and ns[-1] == m.group(1):
            ns.pop()
        m = re.match(r"(?:@\[[^\]]*\] )?theorem (C\d+_\S+)", line)
        if m:
            thms.setdefault(m.group(1).split('_')[0], []).append((".".join(ns + [m.group(1)]), f.stem))
claims = []
for line in (root / "properties.jsonl").read_text().splitlines():
    pid = json.loads(line)["id"]
    status, note = NOTES.get(pid, (None, ""))
    names = [n for n, _ in thms.get(pid, [])]
    if status is None:
        whole = names and not any(n.endswith("_partial") for n in names)
        status = "proved" if whole else "partial"
        if not names:
            note = note or "No theorem yet."
    claims.append({"property": pid, "status": status, "theorems": names, "note": note})
(root / "MANIFEST.json").write_text(json.dumps({"claims": claims}, indent=1) + "\n")
mods = sorted({m for l in thms.values() for _, m in l})
out = "".join(f"import Verif.Props.{m}\n" for m in mods)
out += "import Lean.Elab.Command\nimport Lean.Util.CollectAxioms\n"
out += '''/-
Generated by tools/gen_manifest.py.  The build fails if a property theorem depends on an axiom
other than propext, Classical.choice and Quot.sound; every axiom used is printed.
-/
open Lean Elab Command

/-- Fail unless all named theorems depend on the three standard axioms only. -/
elab "#audit " ids:ident* : command => do
  let mut used : Array Name := #[]
  for id in ids do
    let n ← liftCoreM <| realizeGlobalConstNoOverloadWithInfo id
    for a in (← liftCoreM <| collectAxioms n) do
      unless [``propext, ``Classical.choice, ``Quot.sound].contains a do
        throwErrorAt id "{n} depends on axiom {a}"
      unless used.contains a do used := used.push a
  logInfo m!"{ids.size} property theorems; axioms used: {used.toList}"

#audit
'''
for pid in sorted(thms):
    for n, _ in thms[pid]:
        out += f"  {n}\n"
(root / "lean/Verif/Audit.lean").write_text(out)
print(sum(len(v) for v in thms.values()), "theorems for", len(thms), "properties")
