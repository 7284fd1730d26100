"""Tests the theorems about the translated text (C67 -) against edited copies of /repo/src.

Usage: python3 tools/mutate_rust.py FILE.json [scratch-dir [base-dir]]

As tools/mutate.py, but the edit is made to a copy of the Rust text, which tools/rust2lean.py then
translates again: FILE.json is a list of {"id", "file", "old", "new", "edit", "claim", "props"}, with
`file` a file of /repo/src, and an optional "at", the offset of the one occurrence of `old` to replace.
base-dir is a built Lake project with the compiled checks in obj/.  The checks `text` are run on the
new translation.  If some of `props` have no refuted check, the whole project is built:
  SURVIVED       it builds, or the translation is the same as before
  inconclusive   some proof does not go through, but no check is refuted
"did not finish" means that the checks exceeded their time; those printed until then still count.
"""
import glob, json, os, pathlib, re, shutil, subprocess, sys, time

root = pathlib.Path(__file__).resolve().parent.parent
muts = json.loads(pathlib.Path(sys.argv[1]).read_text())
scratch = pathlib.Path(sys.argv[2] if len(sys.argv) > 2 else "/tmp/wr")
base = sys.argv[3] if len(sys.argv) > 3 else str(root / "lean")
log = pathlib.Path(os.environ.get("LOG", root / "seeded" / "LOG.jsonl"))
first = ["first"] if os.environ.get("FIRST") else []
only = bool(os.environ.get("ONLY"))  # evaluate the checks of the named properties only
done = {json.loads(l)["id"] for l in log.read_text().splitlines()} if log.exists() else set()
translate = ["python3", str(root / "tools/rust2lean.py")]


def build(target):
    out = subprocess.run(["lake", "build"] + target, cwd=scratch, capture_output=True, text=True)
    text = out.stdout + out.stderr
    return re.findall(r"error: (\S+\.lean:\d+):\d+: (.*)", text) or ([("?", text[-300:])] if out.returncode else [])


def evaluate(props):
    ir, obj = scratch / ".lake/build/ir/Verif", scratch / "obj"
    cs = [str(ir / "Rust.c")] + [c for d in ("Source", "Seen", "Left", "Model", "Spec") for c in glob.glob(str(ir / d / "*.c"))]
    cs += [c for c in glob.glob(str(ir / "Check/*.c")) if "/Sound" not in c]
    objs = []
    for c in cs:
        o = obj / (c[len(str(ir)) + 1:].replace("/", "_") + ".o")
        objs.append(str(o))
        if not o.exists() or o.stat().st_mtime < os.stat(c).st_mtime:
            subprocess.run(["leanc", "-O0" if "/Seen/" in c else "-O1", "-c", c, "-o", str(o)], check=True)
    subprocess.run(["leanc", "-o", str(obj / "run")] + objs, check=True)
    limit = "ulimit -v 6000000; exec timeout 400 "
    run = subprocess.run(["bash", "-c", limit + " ".join([str(obj / "run"), "text"] + first + props)],
                         capture_output=True, text=True)
    results = dict(re.findall(r"^(C\d\d\S*) (true|false)$", run.stdout, re.M))
    return sorted(n for n, v in results.items() if v == "false"), run.returncode


subprocess.run(["rm", "-rf", str(scratch)], check=True)
subprocess.run(["cp", "-a", base, str(scratch)], check=True)
src = pathlib.Path(str(scratch) + "-src")
for m in muts:
    if m["id"] in done:
        continue
    t = time.time()
    shutil.rmtree(src, ignore_errors=True)
    shutil.copytree("/repo/src", src)
    f = src / m["file"]
    s = f.read_text()
    if "at" in m:
        assert s[m["at"]:].startswith(m["old"])
        s = s[:m["at"]] + m["new"] + s[m["at"] + len(m["old"]):]
    elif s.count(m["old"]) != m.get("count", 1):
        print(m["id"], "BAD PATTERN", s.count(m["old"]), flush=True)
        continue
    else:
        s = s.replace(m["old"], m["new"])
    f.write_text(s)
    tr = subprocess.run(translate + ["--src", str(src), "--out", str(scratch / "Verif/Source")],
                        capture_output=True, text=True)
    if tr.returncode:
        print(m["id"], "NOT TRANSLATED", tr.stderr.splitlines()[-1:], flush=True)
        continue
    same = all((scratch / "Verif/Source" / g).read_text() == (root / "lean/Verif/Source" / g).read_text()
               for g in os.listdir(root / "lean/Verif/Source"))
    refuted, code, failed = [], 0, None
    if same:
        verdict = "the translation is the same" if not m["props"] else f"SURVIVED {m['props']} (same translation)"
    else:
        own = build(["Verif.Check.Run"])
        if own:
            print(m["id"], "DOES NOT BUILD", own[:1], flush=True)
            continue
        refuted, code = evaluate(m["props"] if only else [])
        killed = {n.split("_")[0] for n in refuted}
        open_ = [p for p in m["props"] if p not in killed]
        if not m["props"]:
            verdict = "CONTROL REFUTED" if refuted else "control: no instance refuted"
        elif not open_ or (first and refuted):
            verdict = "killed"
        else:
            failed = [f"{p}: {msg[:60]}" for p, msg in build([])] if not os.environ.get("NOBUILD") else ["?"]
            verdict = f"inconclusive {open_}" if failed else f"SURVIVED {open_}"
            if code:
                verdict += " (did not finish)"
    print(m["id"], verdict, refuted[:6], (failed or [])[:3], f"{time.time() - t:.0f}s", flush=True)
    entry = {"id": m["id"], "definition": "", "file": "src/" + m["file"], "edit": m["edit"],
             "claim": m["claim"], "properties": m["props"], "failed_directly": failed,
             "blocked_downstream": None, "refuted": refuted, "verdict": verdict, "tightened": []}
    with log.open("a") as g:
        g.write(json.dumps(entry) + "\n")
