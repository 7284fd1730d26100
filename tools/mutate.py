"""Tests the theorems against wrong programs.

Usage: python3 tools/mutate.py FILE.json [scratch-dir [base-dir]]

base-dir is the built Lake project to copy, by default lean/.

FILE.json is a list of {"id", "file", "old", "new", "def", "edit", "claim", "props"}: in a scratch copy
of the project, `old` is replaced by `new` in Verif/`file`.  `props` are the properties whose English
claim the edit breaks; a list without any makes the edit a control.  One line per mutation is appended
to seeded/LOG.jsonl.  /tmp/deps.json must have been written by tools/deps.py.

A proof that breaks does not show that its statement is false: an edit that changes nothing can break
a proof script, and every theorem above a broken lemma goes unchecked.  So the edited model is first
evaluated on the instances of the property theorems in Verif/Check, each of which Verif/Check/Sound*.lean
derive from the theorem it is named after.
  refuted             instances that evaluate to false: the theorem is false of the edited model
A property counts as killed only if one of its instances is refuted.  If one of `props` is not killed,
the whole project is built on the edited model:
  failed_directly     declarations whose own proof was rejected
  blocked_downstream  property theorems that use one of those (not evidence of anything)
  SURVIVED            a property none of whose theorems is in either list
  inconclusive        otherwise
"""
import glob, json, os, pathlib, re, shutil, subprocess, sys, time

root = pathlib.Path(__file__).resolve().parent.parent
muts = json.loads(pathlib.Path(sys.argv[1]).read_text())
scratch = pathlib.Path(sys.argv[2] if len(sys.argv) > 2 else "/tmp/w")
base = sys.argv[3] if len(sys.argv) > 3 else str(root / "lean")
deps = json.load(open("/tmp/deps.json"))
where = {}
for n, m, a, b in deps["decls"]:
    where.setdefault(m, []).append((a, b, n))
uses = {n: set(u) for n, u in deps["props"]}
log = root / "seeded" / "LOG.jsonl"
lines = [json.loads(l) for l in log.read_text().splitlines()] if log.exists() else []
done = {d["id"] for d in lines if d["refuted"] is not None and not d["verdict"].startswith("inconclusive")}


def enclosing(module, line):
    best = None
    for a, b, n in where.get(module, []):
        if a <= line <= b and (best is None or (b - a, len(n)) < (best[1] - best[0], len(best[2]))):
            best = (a, b, n)
    return best[2] if best else f"example at {module}:{line}"


def errors(target):
    out = subprocess.run(["lake", "build"] + target, cwd=scratch, capture_output=True, text=True)
    text = out.stdout + out.stderr
    return [(p, int(l), msg) for p, l, msg in re.findall(r"error: (\S+\.lean):(\d+):\d+: (.*)", text)]


def evaluate():
    """Compile the checks with the compiler that comes with Lean, and run them."""
    ir, obj = scratch / ".lake/build/ir/Verif", scratch / "obj"
    obj.mkdir(exist_ok=True)
    cs = [str(ir / "Rust.c")] + [c for d in ("Source", "Model", "Spec") for c in glob.glob(str(ir / d / "*.c"))]
    cs += [c for c in glob.glob(str(ir / "Check/*.c")) if "/Sound" not in c]
    objs = []
    for c in cs:
        o = obj / (c[len(str(ir)) + 1:].replace("/", "_") + ".o")
        objs.append(str(o))
        if not o.exists() or o.stat().st_mtime < os.stat(c).st_mtime:
            subprocess.run(["leanc", "-O1", "-c", c, "-o", str(o)], check=True)
    subprocess.run(["leanc", "-o", str(obj / "run")] + objs, check=True)
    run = subprocess.run([str(obj / "run")], capture_output=True, text=True, timeout=1800)
    results = dict(re.findall(r"^(C\d\d\S*) (true|false)$", run.stdout, re.M))
    if run.returncode or not results:
        raise RuntimeError(run.stderr[-300:])
    return sorted(n for n, v in results.items() if v == "false")


for m in muts:
    if m["id"] in done:
        continue
    t = time.time()
    shutil.rmtree(scratch, ignore_errors=True)
    subprocess.run(["cp", "-a", base, str(scratch)], check=True)
    f = scratch / "Verif" / m["file"]
    s = f.read_text()
    if s.count(m["old"]) != m.get("count", 1):
        print(m["id"], "BAD PATTERN", s.count(m["old"]), flush=True)
        continue
    f.write_text(s.replace(m["old"], m["new"]))
    own = errors(["Verif.Check.Run"])
    if own:
        print(m["id"], "MODEL DOES NOT BUILD", own, flush=True)
        continue
    try:
        refuted = evaluate()
    except Exception as e:
        print(m["id"], "INSTANCES DID NOT RUN", e, flush=True)
        continue
    killed = {n.split("_")[0] for n in refuted}
    open_ = [p for p in m["props"] if p not in killed]
    failed = blocked = None
    if not m["props"]:
        verdict = "CONTROL REFUTED" if refuted else "control: no instance refuted"
    elif not open_:
        verdict = "killed"
    else:
        failed = sorted({enclosing(p.removesuffix(".lean").replace("/", "."), l) for p, l, _ in errors([])})
        blocked = sorted(n for n, u in uses.items() if n not in failed and u & set(failed))
        hit = {n.removeprefix("Chf.Props.").split("_")[0] for n in failed + blocked}
        rest = [p for p in open_ if p not in hit]
        verdict = f"SURVIVED {rest}" if rest else f"inconclusive {open_}"
    print(m["id"], verdict, refuted[:6], (failed or [])[:4], f"{time.time() - t:.0f}s", flush=True)
    entry = {"id": m["id"], "definition": m["def"], "file": "lean/Verif/" + m["file"],
             "edit": m["edit"], "claim": m["claim"], "properties": m["props"],
             "failed_directly": failed, "blocked_downstream": blocked,
             "refuted": refuted, "verdict": verdict, "tightened": []}
    with log.open("a") as g:
        g.write(json.dumps(entry) + "\n")
