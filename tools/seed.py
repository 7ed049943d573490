#!/usr/bin/env python3
"""Tries wrong programs against the theorems, in a scratch copy.

usage: seed.py MUTANTS.json [SCRATCH]

MUTANTS.json: list of {"id", "definition", "file", "old", "new", "claim", "edit"}; `old` (unique in the file) is
replaced by `new` in the model. The copy is rebuilt; every declaration that no longer checks is replaced by a
placeholder in the copy and the build repeated, until it goes through. Printed per mutant: the declarations that
failed, and the property theorems that failed or now rest on one that failed.
"""
import json, re, subprocess, sys, pathlib, shutil
root = pathlib.Path(__file__).resolve().parent.parent
muts = json.load(open(sys.argv[1]))
scratch = pathlib.Path(sys.argv[2] if len(sys.argv) > 2 else "/tmp/seed/copy")

START = re.compile(r"^(?:@\[[^\]]*\]\s*)?(?:private |protected |noncomputable )*(theorem|lemma|def|example|instance|abbrev|structure|inductive)\b\s*([^\s:({\[]*)")
STOP = re.compile(r"^(?:@\[|private |protected |noncomputable |theorem|lemma|def|example|instance|abbrev|structure|inductive|mutual|end\b|namespace|section|open|variable|include|omit|/--|/-!|set_option|attribute)")

def decl_at(lines, ln):
    i = ln
    while i >= 0 and not START.match(lines[i]): i -= 1
    if i < 0: return None
    j = i + 1
    while j < len(lines) and not STOP.match(lines[j]): j += 1
    if ln >= j: return None
    m = START.match(lines[i])
    return i, j, m.group(1), m.group(2) or f"example:{i+1}"

def stub(text):
    depth = 0; k = 0
    while k < len(text):
        c = text[k]
        if c == '"':
            k = text.find('"', k + 1) + 1
            if k == 0: return None
            continue
        if c in "([{⟨": depth += 1
        elif c in ")]}⟩": depth -= 1
        elif depth == 0 and text.startswith(":=", k) and not text[:k].rsplit("\n", 1)[-1].lstrip().startswith(("let ", "have ")):
            return text[:k] + ":= by sorry\n"
        elif depth == 0 and text.startswith("\n  | ", k): return text[:k] + " := by sorry\n"
        k += 1
    return None

def build():
    p = subprocess.run(["lake", "build"], cwd=scratch, capture_output=True, text=True, timeout=3600)
    out = p.stdout + p.stderr
    errs = {}
    for m in re.finditer(r"^error: (Verif/\S+\.lean):(\d+):\d+:", out, re.M):
        errs.setdefault(m.group(1), set()).add(int(m.group(2)) - 1)
    return p.returncode == 0, errs, out

theorems = []
for f in sorted((root / "lean/Verif/Props").glob("*.lean")):
    theorems += re.findall(r"^theorem (C\d\d+_\S+)", f.read_text(), re.M)

for mu in muts:
    subprocess.run(["rsync", "-a", "--delete", f"{root}/lean/", f"{scratch}/"], check=True) if shutil.which("rsync") else \
        (shutil.rmtree(scratch, ignore_errors=True), shutil.copytree(root / "lean", scratch, symlinks=True))
    top = scratch / "Verif.lean"
    top.write_text("\n".join(l for l in top.read_text().split("\n") if "Verif.Tests" not in l))
    f = scratch / mu["file"]
    t = f.read_text()
    if t.count(mu["old"]) != 1:
        print(json.dumps({"id": mu["id"], "error": f"old occurs {t.count(mu['old'])} times"})); continue
    f.write_text(t.replace(mu["old"], mu["new"]))
    failed, bad = [], None
    for _ in range(40):
        ok, errs, out = build()
        if ok: break
        if not errs: bad = out[-600:]; break
        stuck = True
        for file, lns in errs.items():
            path = scratch / file
            lines = path.read_text().split("\n")
            spans = {}
            for ln in lns:
                d = decl_at(lines, ln)
                if d: spans[d[0]] = d
            for i in sorted(spans, reverse=True):
                i, j, kind, name = spans[i]
                if kind in ("def", "instance", "abbrev", "structure", "inductive"):
                    bad = f"{file}: {kind} {name}"; continue
                s = stub("\n".join(lines[i:j]))
                if s is None or "by sorry" in "\n".join(lines[i:j]): bad = f"{file}: cannot stub {name}"; continue
                lines[i:j] = [s]
                failed.append(f"{file[6:-5].replace('/', '.')}:{name}")
                stuck = False
            path.write_text("\n".join(lines))
        if stuck: break
    rests = []
    if ok:
        (scratch / "Ax.lean").write_text("import Verif\nopen BoolParser\n" + "\n".join(f"#print axioms {t}" for t in theorems))
        p = subprocess.run(["lake", "env", "lean", "Ax.lean"], cwd=scratch, capture_output=True, text=True)
        for m in re.finditer(r"'(?:BoolParser\.)?(C\d\d+_\S+)' depends on axioms: \[([^\]]*)\]", p.stdout):
            if "sorryAx" in m.group(2): rests.append(m.group(1))
    print(json.dumps({"id": mu["id"], "claim": mu["claim"], "edit": mu["edit"], "failed": failed, "affected": rests,
                      "n_affected": len(rests), "bad": bad, "ok": ok}), flush=True)
