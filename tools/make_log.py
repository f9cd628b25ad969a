#!/usr/bin/env python3
"""Convert results of mutate.py (results.jsonl) to seeded/LOG.jsonl.  Usage: make_log.py RESULTS ..."""
import json, pathlib, sys
from log_notes import NOTES

out, seen = [], set()
for name in sys.argv[1:]:
    for line in open(name):
        d = json.loads(line)
        if d["id"] in seen:
            continue
        seen.add(d["id"])
        note = NOTES.get(d["id"], {})
        out.append({
            "id": d["id"],
            "definition": f'{d["definition"]} ({d["module"]})',
            "edit": d["edit"],
            "claim": d["claim"],
            "properties_expected_to_break": d["breaks"],
            "theorems_failed": d["failed"],
            "theorems_tightened": note.get("tightened", []),
            **({"note": note["note"]} if "note" in note else {}),
        })
out.sort(key=lambda d: d["id"])
path = pathlib.Path(__file__).resolve().parent.parent / "seeded" / "LOG.jsonl"
path.write_text("".join(json.dumps(d, ensure_ascii=False) + "\n" for d in out))
print(len(out), "lines;", sum(not d["theorems_failed"] for d in out), "without failed theorems")
