#!/usr/bin/env python3
"""Seeded bugs: apply each to a scratch copy of the Lean sources, recompile what depends on it, and see which
property theorems are no longer proved.

Usage: mutate.py SCRATCH [id ...]      (SCRATCH is created; needs a finished `lake build` in ../lean)

Modules with errors are still written (a failed proof is replaced by sorryAx by Lean's error recovery), so a
property theorem counts as failed exactly if it is missing or depends on sorryAx.
Results are appended to SCRATCH/results.jsonl.
"""
import json, os, pathlib, re, shutil, subprocess, sys, time
from concurrent.futures import ThreadPoolExecutor, wait, FIRST_COMPLETED
from mutations import MUTATIONS

# a finished build of the sources; MUTATE_BASE lets it be a snapshot, so that work can go on in ../lean
root = pathlib.Path(os.environ.get("MUTATE_BASE", pathlib.Path(__file__).resolve().parent.parent))
scratch = pathlib.Path(sys.argv[1])
only = set(sys.argv[2:])
JOBS = int(os.environ.get("JOBS", "2"))
TIMEOUT = int(os.environ.get("MODULE_TIMEOUT", "1500"))
# recompile only what the theorems of the claimed properties need
CLAIMED = os.environ.get("ONLY_CLAIMED") == "1"

DRIVER = r'''
import Lean
open Lean Elab
unsafe def main (args : List String) : IO UInt32 := do
  let [file, modn, olean] := args | return 2
  enableInitializersExecution
  initSearchPath (← findSysroot) []
  let sp ← searchPathRef.get
  let extra := (← IO.getEnv "LEAN_PATH").getD ""
  searchPathRef.set ((extra.splitOn ":").map System.FilePath.mk ++ sp)
  let input ← IO.FS.readFile file
  let ictx := Parser.mkInputContext input file
  let (header, ps, msgs) ← Parser.parseHeader ictx
  let opts : Options := {}
  let opts := Lean.Elab.async.set opts false
  let (env, msgs) ← processHeader header opts msgs ictx (mainModule := modn.toName)
  let s ← IO.processCommands ictx ps (Command.mkState env msgs opts)
  for m in s.commandState.messages.toList do
    if m.severity == .error then
      IO.println s!"ERR {m.pos.line}:{m.pos.column} {((← m.data.toString).take 200).toString.replace "\n" " "}"
    else if m.severity == .information then
      IO.println s!"INFO {(← m.data.toString)}"
  writeModule s.commandState.env olean
  return 0
'''

AUDIT = r'''
open Lean Elab Command
elab "#failed " ids:str* : command => do
  let env ← getEnv
  for id in ids do
    let n := id.getString.toName
    if !env.contains n then logInfo m!"FAILED {n} (missing)"
    else if (← liftCoreM <| collectAxioms n).contains ``sorryAx then logInfo m!"FAILED {n}"
'''

def modfile(base, mod):
    return base / (mod.replace(".", "/") + ".lean")

def modules():
    src = root / "lean"
    mods = {}
    for f in sorted((src / "Verif").rglob("*.lean")):
        mod = ".".join(f.relative_to(src).with_suffix("").parts)
        mods[mod] = [m for m in re.findall(r"^import (Verif\.\S+)", f.read_text(), re.M)]
    return mods

def theorem_at(text, line):
    name = "?"
    for i, l in enumerate(text.splitlines(), 1):
        m = re.match(r"(?:@\[[^\]]*\] )?(?:private )?(theorem|def|example|instance|lemma|structure|abbrev)\s*(\S*)", l)
        if m:
            name = m.group(2) if m.group(1) not in ("example",) else "example"
        if i >= line:
            return name
    return name

def main():
    scratch.mkdir(parents=True, exist_ok=True)
    (scratch / "Driver.lean").write_text(DRIVER)
    mods = modules()
    mods.pop("Verif.Audit", None)
    pristine = root / "lean/.lake/build/lib/lean"
    env0 = dict(os.environ)
    lp = subprocess.run(["lake", "env", "printenv", "LEAN_PATH"], cwd=root / "lean", capture_output=True, text=True).stdout.strip()
    others = [p for p in lp.split(":") if p and pathlib.Path(p).resolve() != pristine.resolve()]
    thms = {}
    for f in sorted((root / "lean/Verif/Props").glob("*.lean")):
        thms["Verif.Props." + f.stem] = re.findall(r"^(?:@\[[^\]]*\] )?theorem (C\d+_\S+)", f.read_text(), re.M)
    propmods = [m for m in mods if m.startswith("Verif.Props.")]
    done = set()
    res = scratch / "results.jsonl"
    if res.exists():
        done = {json.loads(l)["id"] for l in res.read_text().splitlines()}
    for mut in MUTATIONS:
        mid, mod, old, new = mut["id"], mut["module"], mut["old"], mut["new"]
        if only and mid not in only or (not only and mid in done):
            continue
        t0 = time.time()
        work = scratch / "work"
        shutil.rmtree(work, ignore_errors=True)
        (work / "src").mkdir(parents=True)
        lib = work / "lib"
        shutil.copytree(root / "lean/Verif", work / "src/Verif")
        text = modfile(work / "src", mod).read_text()
        if text.count(old) != 1:
            print(mid, "pattern occurs", text.count(old), "times", flush=True)
            continue
        modfile(work / "src", mod).write_text(text.replace(old, new))
        down = {mod}
        changed = True
        while changed:
            changed = False
            for m, imps in mods.items():
                if m not in down and any(i in down for i in imps):
                    down.add(m); changed = True
        if CLAIMED:
            need = [m for m in thms if any(t.split("_")[0] in mut["breaks"] for t in thms[m])]
            for m in need:
                need += [i for i in mods[m] if i not in need]
            skipped = down - set(need)
            down &= set(need)
        else:
            skipped = set()
        for m in mods:
            if m not in down and m not in skipped:
                dst = lib / (m.replace(".", "/") + ".olean")
                dst.parent.mkdir(parents=True, exist_ok=True)
                os.symlink(pristine / (m.replace(".", "/") + ".olean"), dst)
        env0["LEAN_PATH"] = ":".join([str(lib)] + others)
        errors = {}
        finished, running = set(), {}
        def compile(m):
            dst = lib / (m.replace(".", "/") + ".olean")
            dst.parent.mkdir(parents=True, exist_ok=True)
            try:
                r = subprocess.run(["lean", "--run", str(scratch / "Driver.lean"), str(modfile(work / "src", m)), m, str(dst)],
                                   cwd=work, env=env0, capture_output=True, text=True, timeout=TIMEOUT)
                return m, r.stdout + r.stderr
            except subprocess.TimeoutExpired:
                return m, "ERR 0:0 timeout"
        with ThreadPoolExecutor(JOBS) as ex:
            while len(finished) < len(down):
                for m in sorted(down):
                    if m not in finished and m not in running and all(i not in down or i in finished for i in mods[m]):
                        running[m] = ex.submit(compile, m)
                wait(running.values(), return_when=FIRST_COMPLETED)
                for m in [m for m, f in running.items() if f.done()]:
                    _, out = running.pop(m).result()
                    finished.add(m)
                    src = modfile(work / "src", m).read_text()
                    for line, msg in re.findall(r"^ERR (\d+):\d+ (.*)$", out, re.M):
                        errors.setdefault(m, []).append(theorem_at(src, int(line)))
                    if "uncaught exception" in out or "error" in out.lower() and not re.search(r"^ERR", out, re.M):
                        errors.setdefault(m, []).append("driver: " + out.strip()[:200])
        present = [m for m in propmods if (lib / (m.replace(".", "/") + ".olean")).exists()]
        audit = work / "src/MutAudit.lean"
        audit.write_text("".join(f"import {m}\n" for m in present) + "import Lean.Elab.Command\nimport Lean.Util.CollectAxioms\n" + AUDIT
                         + "#failed " + " ".join('"DLB.%s"' % t for m in propmods if m not in skipped for t in thms[m]) + "\n")
        r = subprocess.run(["lean", str(audit)], cwd=work, env=env0, capture_output=True, text=True)
        failed = re.findall(r"FAILED DLB\.(\S+)", r.stdout)
        if r.returncode != 0 and not failed:
            print(mid, "audit error", r.stdout[:300], r.stderr[:300])
        helpers = sorted({t for l in errors.values() for t in l if t not in failed})
        expect = mut["breaks"]
        missed = [p for p in expect if not any(t.startswith(p + "_") for t in failed)]
        rec = dict(id=mid, definition=mut["definition"], module=mod, edit={"old": old, "new": new}, claim=mut["claim"],
                   breaks=expect, failed=failed, helper_failures=helpers[:12], missed=missed, seconds=round(time.time() - t0))
        with open(res, "a") as f:
            f.write(json.dumps(rec, ensure_ascii=False) + "\n")
        print(mid, "failed:", failed, "MISSED:" if missed else "", missed, rec["seconds"], "s", flush=True)

main()
