#!/usr/bin/env python3
"""Mechanical seeded bugs: at every operator, literal and constructor of the model's definitions, one small edit.

Usage: automut.py SCRATCH [--list] [module substring ...]

Each edit is applied to a scratch copy.  If the edited module no longer compiles the edit is discarded (`stillborn`).
Otherwise the modules that depend on it are recompiled until one of them fails (`killed`, with the first failures) or
all are done (`survived`).  Results are appended to SCRATCH/auto.jsonl.
"""
import json, os, pathlib, re, shutil, subprocess, sys, time, random
from concurrent.futures import ThreadPoolExecutor, wait, FIRST_COMPLETED

root = pathlib.Path(os.environ.get("MUTATE_BASE", pathlib.Path(__file__).resolve().parent.parent))
scratch = pathlib.Path(sys.argv[1])
args = [a for a in sys.argv[2:] if a != "--list"]
listing = "--list" in sys.argv
JOBS = int(os.environ.get("JOBS", "2"))
MODELS = os.environ.get("AUTOMUT_DIRS", "Model").split(",")

RULES = [
    (r" < ", " ≤ "), (r" ≤ ", " < "), (r" \+ (?!\+)", " - "), (r"(?<![-=<]) - ", " + "), (r" \* ", " / "), (r" / ", " * "),
    (r"(?<=\bif )(\S.*?) = ", r"\1 ≠ "), (r" ∧ ", " ∨ "), (r" ∨ ", " ∧ "), (r" && ", " || "), (r" \|\| ", " && "),
    (r" == ", " != "), (r" \+ 1\b", ""), (r" - 1\b", ""), (r"(?<![\w.])0(?![\w.])", "1"), (r"(?<![\w.])1(?![\w.])", "2"),
    (r"(?<![\w.])2(?![\w.])", "3"), (r"\bdrop\b", "take"), (r"\btake\b", "drop"), (r"\.all\b", ".any"), (r"\btrue\b", "false"),
    (r"\bfalse\b", "true"), (r"\bstdMin\b", "stdMax"), (r"\bstdMax\b", "stdMin"), (r"\bfoamMin\b", "foamMax"),
    (r"\bfoamMax\b", "foamMin"), (r"\.src\b", ".dst"), (r"\.dst\b", ".src"), (r"\.sources\b", ".destinations"),
    (r"\.destinations\b", ".sources"), (r"\.sender\b", ".receiver"), (r"\.receiver\b", ".sender"),
    (r"\{ (\w+) with [^{}]*\}", r"\1"), (r"\.fatal\b", ".ub"), (r"\.ub\b", ".fatal"), (r"\bsucc\b", "castSucc"),
    (r"absS \(([^()]*)\)", r"(\1)"), (r" \+\+ (\[[^\]]*\]|\w+)", ""), (r"\(-([^()]*)\)", r"(\1)"), (r"\.Ti\b", ".pi"),
    (r"\.deltaTChem\b", ".deltaT"), (r"\.deltaT\b", ".deltaTChem"), (r"\.c\b(?! *:=)", ".c.reverse"), (r"\.1\b", ".2"), (r"\.2\b", ".1"),
]

def code_mask(text):
    """True for characters outside comments and strings."""
    mask = [True] * len(text)
    i, depth = 0, 0
    while i < len(text):
        if text.startswith("/-", i):
            depth += 1; mask[i] = mask[i+1] = False; i += 2; continue
        if depth and text.startswith("-/", i):
            depth -= 1; mask[i] = mask[i+1] = False; i += 2; continue
        if depth:
            mask[i] = False; i += 1; continue
        if text.startswith("--", i):
            while i < len(text) and text[i] != "\n":
                mask[i] = False; i += 1
            continue
        i += 1
    return mask

def mutants():
    src = root / "lean"
    for d in MODELS:
        for f in sorted((src / "Verif" / d).glob("*.lean")):
            mod = ".".join(f.relative_to(src).with_suffix("").parts)
            if args and not any(a in mod for a in args):
                continue
            text = f.read_text()
            mask = code_mask(text)
            lines, pos = [], 0
            for n, l in enumerate(text.split("\n"), 1):
                s = l.strip()
                code = "".join(c if mask[pos + k] else "\0" for k, c in enumerate(l))
                if s and not s.startswith(("import ", "set_option", "namespace", "variable", "open ", "deriving", "end", "section", "theorem")):
                    for pat, rep in RULES:
                        for m in re.finditer(pat, code):
                            new = m.expand(rep) if "\\" in rep else rep
                            yield mod, n, l, l[:m.start()] + new + l[m.end():]
                pos += len(l) + 1

def modules():
    src = root / "lean"
    mods = {}
    for f in sorted((src / "Verif").rglob("*.lean")):
        mod = ".".join(f.relative_to(src).with_suffix("").parts)
        mods[mod] = [m for m in re.findall(r"^import (Verif\.\S+)", f.read_text(), re.M)]
    return mods

def decl_at(lines, n):
    for i in range(n - 1, -1, -1):
        m = re.match(r"(?:@\[[^\]]*\] )?(?:private |noncomputable )?(theorem|def|example|instance|structure|abbrev|inductive)\s*(\S*)", lines[i])
        if m:
            return m.group(2) or m.group(1)
    return "?"

def main():
    muts = sorted(set(mutants()))
    if listing:
        from collections import Counter
        c = Counter(m[0] for m in muts)
        for k, v in c.items(): print(v, k)
        print(len(muts)); return
    random.Random(1).shuffle(muts)
    scratch.mkdir(parents=True, exist_ok=True)
    res = scratch / "auto.jsonl"
    done = set()
    if res.exists():
        for l in res.read_text().splitlines():
            r = json.loads(l); done.add((r["module"], r["line"], r["new"]))
    mods = modules(); mods.pop("Verif.Audit", None)
    pristine = root / "lean/.lake/build/lib/lean"
    lp = subprocess.run(["lake", "env", "printenv", "LEAN_PATH"], cwd=root / "lean", capture_output=True, text=True).stdout.strip()
    others = [p for p in lp.split(":") if p and pathlib.Path(p).resolve() != pristine.resolve()]
    for mod, n, old, new in muts:
        if (mod, n, new.strip()) in done:
            continue
        t0 = time.time()
        work = scratch / "work"; shutil.rmtree(work, ignore_errors=True)
        lib = work / "lib"
        down, changed = {mod}, True
        while changed:
            changed = False
            for m, imps in mods.items():
                if m not in down and any(i in down for i in imps):
                    down.add(m); changed = True
        for m in mods:
            dst = lib / (m.replace(".", "/") + ".olean"); dst.parent.mkdir(parents=True, exist_ok=True)
            if m not in down:
                os.symlink(pristine / (m.replace(".", "/") + ".olean"), dst)
        f = root / "lean" / (mod.replace(".", "/") + ".lean")
        lines = f.read_text().split("\n")
        assert lines[n-1] == old
        decl = decl_at(lines, n)
        mlines = list(lines); mlines[n-1] = new
        msrc = work / (mod.replace(".", "/") + ".lean"); msrc.parent.mkdir(parents=True, exist_ok=True)
        msrc.write_text("\n".join(mlines))
        env = dict(os.environ); env["LEAN_PATH"] = ":".join([str(lib)] + others)
        procs = []
        def compile(m):
            src = msrc if m == mod else root / "lean" / (m.replace(".", "/") + ".lean")
            dst = lib / (m.replace(".", "/") + ".olean")
            p = subprocess.Popen(["timeout", "1500", "lean", "-M", "7000", "-R", str(work if m == mod else root / "lean"), "-o", str(dst), str(src)], cwd=work, env=env, stdout=subprocess.PIPE, stderr=subprocess.STDOUT, text=True)
            procs.append(p)
            out = p.communicate()[0]
            return p.returncode, out
        rc, out = compile(mod)
        verdict, why = None, []
        if rc != 0:
            # errors inside a theorem of the same module count as kills
            errs = [int(x) for x in re.findall(r"^\S+:(\d+):\d+: error", out, re.M)]
            names = [decl_at(mlines, e) for e in errs]
            isthm = [re.search(r"^theorem " + re.escape(x) + r"\b", "\n".join(mlines), re.M) is not None for x in names]
            if names and all(isthm): verdict, why = "killed", names
            else: verdict, why = "stillborn", [out[:200]]
        else:
            finished, running = {mod}, {}
            with ThreadPoolExecutor(JOBS) as ex:
                while len(finished) < len(down) and verdict is None:
                    for m in sorted(down):
                        if m not in finished and m not in running and all(i not in down or i in finished for i in mods[m]):
                            running[m] = ex.submit(compile, m)
                    wait(running.values(), return_when=FIRST_COMPLETED)
                    for m in [m for m, fu in running.items() if fu.done()]:
                        rc, out = running.pop(m).result(); finished.add(m)
                        if rc != 0:
                            ls = (root / "lean" / (m.replace(".", "/") + ".lean")).read_text().split("\n")
                            errs = [int(x) for x in re.findall(r"^\S+:(\d+):\d+: error", out, re.M)]
                            verdict = "killed"
                            why = [m + ": " + ", ".join(dict.fromkeys(decl_at(ls, e) for e in errs))] if errs else [m + ": rc %d %s" % (rc, out[:200])]
                if verdict is not None:
                    for fu in running.values(): fu.cancel()
                    for p in procs:
                        if p.poll() is None: p.kill()
                    subprocess.run(["pkill", "-f", str(lib)])
            verdict = verdict or "survived"
        rec = dict(module=mod, line=n, definition=decl, old=old.strip(), new=new.strip(), verdict=verdict, why=why, seconds=round(time.time() - t0))
        with open(res, "a") as fo: fo.write(json.dumps(rec, ensure_ascii=False) + "\n")
        print(verdict, mod, n, decl, "|", old.strip(), "=>", new.strip(), why[:1], rec["seconds"], flush=True)
main()
