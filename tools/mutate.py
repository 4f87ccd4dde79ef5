#!/usr/bin/env python3
"""Test the theorems against wrong programs.

usage: mutate.py MUTANTS.json [--dry] [--quick] [--jobs N]     (a list of {"file", "def", "old", "new", "edit", "claim"})

The project is first copied, with its build, so that work can go on meanwhile.

For each mutant the text `old` is replaced by `new` in lean/Verif/<file>, in a scratch file that holds the
edited module and all modules depending on it, one after the other; the other modules are imported from the
regular build.  A theorem whose proof fails stays in the scratch environment with `sorryAx`, so that after
elaboration `#print axioms` tells which `Cnn_` theorems are lost, directly or through a lemma.  One line per
mutant is appended to seeded/LOG.jsonl; nothing under lean/ is changed.
With --quick only the modules between the edited one and the theorems of the broken claim are elaborated, and all
of them only if none of these theorems is lost."""
import json, os, pathlib, re, shutil, subprocess, sys
from concurrent.futures import ThreadPoolExecutor
root = pathlib.Path(__file__).resolve().parent.parent
scratch = pathlib.Path("/tmp/mut%d" % os.getpid()); scratch.mkdir()
lean = scratch / "lean"
shutil.copytree(root / "lean", lean, symlinks=True)
files = {("Verif." + ".".join(f.relative_to(lean / "Verif").with_suffix("").parts)): f
         for f in (lean / "Verif").rglob("*.lean")}
src = {m: f.read_text() for m, f in files.items()}
imports = {m: re.findall(r"^import (\S+)", s, re.M) for m, s in src.items()}

def order(mods):
    done, out = set(), []
    def go(m):
        if m in done or m not in mods: return
        done.add(m)
        for i in imports[m]: go(i)
        out.append(m)
    for m in sorted(mods): go(m)
    return out

def downstream(m):
    res = {m}
    while True:
        new = {x for x in src if x not in res and any(i in res for i in imports[x])}
        if not new: return res
        res |= new

def upstream(ms):
    res, todo = set(), list(ms)
    while todo:
        m = todo.pop()
        if m in res or m not in src: continue
        res.add(m); todo += imports[m]
    return res

def run(idx, mut, log=True, full=False):
    mod = "Verif." + mut["file"].replace("/", ".").removesuffix(".lean")
    s = src[mod]
    n = s.count(mut["old"])
    assert n == 1, (mut["file"], mut["old"], n)
    cl = re.findall(r"C\d\d\d?", mut["claim"])
    mods = downstream(mod)
    if quick and not full:
        mods &= upstream([m for m in mods if any(re.search(r"^theorem " + c + "_", src[m], re.M) for c in cl)])
        if not mods: return run(idx, mut, log, True)
    mods = order(mods)
    ext = sorted({i for m in mods for i in imports[m] if i not in mods})
    text = ["import " + i for i in ext]
    thms = []
    for m in mods:
        t = s.replace(mut["old"], mut["new"]) if m == mod else src[m]
        t = re.sub(r"^import \S+\n", "", t, flags=re.M)
        text.append("section\n" + t + "\nend")
        ns = re.search(r"^namespace (\S+)", t, re.M)
        thms += [ns.group(1) + "." + x for x in re.findall(r"^theorem (C\d\d\d?_[\w']+)", t, re.M)]
    body = "\n".join(text)
    tail = "\n".join("#print axioms " + t for t in thms)
    f = scratch / ("M%d.lean" % idx); f.write_text(body + "\n" + tail + "\n")
    r = subprocess.run(["lake", "env", "lean", str(f)], cwd=lean, capture_output=True, text=True)
    out = r.stdout + r.stderr
    lines = (body + "\n" + tail).split("\n")
    decl = []
    errs = [int(x) for x in re.findall(r"M\d+\.lean:(\d+):\d+: error", out)]
    for e in errs:
        if e > len(body.split("\n")): continue
        k = e - 1
        while k >= 0 and not re.match(r"(@\[.*\] )?(private |protected |noncomputable )*(theorem|lemma|example|def|instance|abbrev|structure|inductive)\b", lines[k]): k -= 1
        d = " ".join(lines[k].split()[:2])
        if d not in decl: decl.append(d)
    okset = set()
    for x, ax in re.findall(r"'([\w.']+)' (depends on axioms: \[[^\]]*\]|does not depend on any axioms)", out):
        if "sorryAx" not in ax: okset.add(x)
    failed = [t for t in thms if t not in okset]
    res = {"file": mut["file"], "definition": mut["def"], "edit": mut["edit"], "claim_broken": mut["claim"],
           "theorems_failed": [t.removeprefix("BeeDNN.") for t in failed], "declarations_with_errors": decl[:12],
           "theorems_tightened": mut.get("tightened", [])}
    surv = [t for t in thms if any("." + c + "_" in t for c in cl) and t in okset]
    caught = any(any("." + c + "_" in t for c in cl) for t in failed)
    if quick and not full and not caught: return run(idx, mut, log, True)
    print(("CAUGHT  " if caught else "SURVIVED"), mut["def"], "|", mut["edit"], "| claim:", mut["claim"][:60],
          "| failed:", len(failed), "| still proved of the claim:", [x.removeprefix("BeeDNN.") for x in surv], flush=True)
    res["outcome"] = "caught" if caught else "survived"
    if quick and not full: res["modules_checked"] = "those between the edited one and the theorems of the claim"
    if log:
        with open(root / "seeded/LOG.jsonl", "a") as fh: fh.write(json.dumps(res, ensure_ascii=False) + "\n")

muts = json.load(open(sys.argv[1]))
log = "--dry" not in sys.argv
quick = "--quick" in sys.argv
jobs = int(sys.argv[sys.argv.index("--jobs") + 1]) if "--jobs" in sys.argv else 1
with ThreadPoolExecutor(jobs) as pool:
    for r in [pool.submit(run, i, m, log) for i, m in enumerate(muts)]: r.result()
shutil.rmtree(scratch)
