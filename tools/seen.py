"""Writes the modules Verif/Seen/*.lean: the translated functions with what an observer sees.

Used by rust2lean.py.  The input is the text of the modules Verif/Source/*.lean that rust2lean.py
has made; a function that may panic (its result is a `Res`) is written again over the monad `Tr` of
Verif/Seen/Prelude.lean:
  the operations that may panic and the loops become those of the namespace `Tr`;
  `if c then` becomes a branch that is noted, one for each operand of `&&`;
  a type parameter `E : Chf.HashEngine` gets a companion `E' : Tr.HashEngine E`.
Conditions on the build configuration are not noted.  The functions that cannot panic are used as
they are; if one of them has a branch, this fails.
"""
import re

# module -> functions to write again; those they use follow
ROOTS = {
    "Cmp": ["fixed_time_eq"],
    "Lib": ["HashEngine.new", "HashEngine.hash", "HashEngine.hash_byte_chunks"],
    "Sha1": ["engine", "Hash.hash"],
    "Sha256": ["engine", "Hash.hash", "Hash.const_hash", "Midstate.hash_tag"],
    "Sha384": ["engine", "Hash.hash"],
    "Sha512": ["engine", "Hash.hash"],
    "Sha512_256": ["engine", "Hash.hash"],
    "Sha256t": ["engine", "Hash.hash"],
    "Ripemd160": ["engine", "Hash.hash"],
    "Siphash24": ["engine", "Hash.hash", "Hash.hash_with_keys", "Hash.hash_to_u64_with_keys"],
    "Hmac": ["engine", "Engine.new"],
}
OPS = ["addUsize", "subUsize", "mulUsize", "assertR", "debugAssert", "index", "indexSet", "sliceTo",
       "sliceFrom", "copyIntoRange"]
RS_OPS = ["remUsize", "addU", "subU", "mulU", "shlU", "shrU", "getUnchecked", "sliceRange", "checkRange",
          "copyFromSlice", "tryInto", "copyNonoverlapping", "loadu8", "loadu32", "storeu32", "whileR",
          "whileBreak", "eachFlow", "eachBreak", "runLines", "zipMut", "zipChunksMut"]
# functions of the preludes without a branch on their arguments' contents
RS_PURE = ["Flow.ret", "Flow.next", "runPure", "uninit", "range", "enumerate", "toLeBytes", "toBeBytes",
           "fromLeBytes", "fromBeBytes", "toLe"]
FIELDS = ["default", "new", "input", "finalize", "midstate", "fromMidstate", "hash"]


class Unseen(Exception):
    pass


class Def:
    def __init__(self, mod, name, doc, head, body, kind):
        self.mod, self.name, self.doc, self.head, self.body, self.kind = mod, name, doc, head, body, kind
        # the result type follows the last colon outside parentheses
        depth, at = 0, None
        sig = head[:head.rindex(":=")] if ":=" in head else head
        for i, c in enumerate(sig):
            depth += c in "([{"
            depth -= c in ")]}"
            if c == ":" and depth == 0:
                at = i
        self.type = sig[at + 1:].strip() if at is not None else ""
        self.may_panic = kind == "def" and (re.search(r"\bRes\b", self.type) is not None or
                                            name == "engine" and "HashEngine where" in head)


def parse(mod, text):
    defs = {}
    for block in re.split(r"\n\n+", text):
        m = re.search(r"^(def|abbrev|structure) (\S+)(.*)$", block, re.M)
        if not m:
            continue
        doc = block[:m.start()].strip()
        line = m.group(0)
        body = block[m.end():]
        defs[m.group(2)] = Def(mod, m.group(2), doc, line, body, m.group(1))
    imports = re.findall(r"^import Verif\.Source\.(\S+)$", text, re.M)
    return defs, imports


TOKEN = re.compile(r"(?<![\w.'])([A-Za-z_][\w']*(?:\.[A-Za-z_][\w']*)*)")


def lookup(mods, mod, token):
    """The definition a token refers to, if it is one of the translated ones."""
    defs = mods[mod][0]
    parts = token.split(".")
    for k in range(len(parts), 0, -1):
        n = ".".join(parts[:k])
        if n in defs:
            return defs[n], token[len(n):]
        if k > 1 and parts[0] in mods and ".".join(parts[1:k]) in mods[parts[0]][0]:
            return mods[parts[0]][0][".".join(parts[1:k])], token[len(n):]
    return None, ""


def is_name(token, after, d):
    """Local variables may have the name of a function; functions are applied to `cfg`."""
    if d.kind != "def" or "." in token or token[0].isupper():
        return True
    return after.startswith(" cfg")


def uses(mods, d):
    code = strip(d.head[d.head.index(d.name) + len(d.name):] + d.body)
    for m in TOKEN.finditer(code):
        e, _ = lookup(mods, d.mod, m.group(1))
        if e and e is not d and is_name(m.group(1), code[m.end():], e):
            yield e


def strip(code):
    return re.sub(r"/--.*?-/", "", code, flags=re.S)


def split_and(c):
    """The operands of `&&`."""
    c = c.strip()
    while c.startswith("(") and c.endswith(")"):
        depth = 0
        for i, x in enumerate(c):
            depth += x == "("
            depth -= x == ")"
            if depth == 0:
                break
        if i != len(c) - 1:
            break
        c = c[1:-1].strip()
    depth = 0
    for i in range(len(c)):
        depth += c[i] == "("
        depth -= c[i] == ")"
        if depth == 0 and c.startswith(" && ", i):
            return split_and(c[:i]) + split_and(c[i + 4:])
    return [c]


def only_cfg(c):
    return all(re.fullmatch(r"!?\(?cfg\.\w+\)?", x) for x in split_and(c))


def check_pure(d):
    code = strip(d.body)
    for c in re.findall(r"\bif (.*?) then\b", code):
        if not only_cfg(c):
            raise Unseen(f"{d.mod}.{d.name}: a branch in a function that cannot panic")
    if re.search(r"\bmatch\b| && | \|\| ", re.sub(r"\bif .*? then\b", "", code)):
        raise Unseen(f"{d.mod}.{d.name}: a branch in a function that cannot panic")
    for n in re.findall(r"\bRs\.((?:Flow\.)?\w+)", code):
        if n not in RS_PURE and n not in RS_OPS:
            raise Unseen(f"{d.mod}.{d.name}: {n}")


def companions(head):
    """Type parameters with functions."""
    return re.findall(r"\((\w+) : (Chf\.HashEngine|Tag)\)", head)


def rewrite(mods, traced, d):
    params = companions(d.head)
    n = [0]

    def cond(m):
        c = m.group(1)
        if only_cfg(c):
            return m.group(0)
        n[0] += 1
        ops = split_and(c)
        if any(" && " in o or " || " in o for o in ops):
            raise Unseen(f"{d.mod}.{d.name}: condition {c}")
        t = f"Tr.test ({ops[0]})" if len(ops) == 1 else f"Tr.all [{', '.join(ops)}]"
        return f"{t} >>= fun b_{n[0]} => if b_{n[0]} then"

    code = strip(d.body)
    if d.name == "engine":
        code = re.sub(r"\n  (State|Midstate|blockSize|nBytesHashed)\b.*", "", code)
    tail = d.head[d.head.index(d.name) + len(d.name):]
    code = tail + code
    code = re.sub(r"^(\s*let .*?) := if (.*?) then (\(.*\)) else (\(.*\))$",
                  lambda m: m.group(0) if only_cfg(m.group(2)) else
                  f"{m.group(1)} ← if {m.group(2)} then pure {m.group(3)} else pure {m.group(4)}", code, flags=re.M)
    code = re.sub(r"\bif (.*?) then\b", cond, code)
    rest = re.sub(r"Tr\.all \[.*?\]|\bif .*? then\b", "", code)
    if re.search(r" && | \|\| ", rest):
        raise Unseen(f"{d.mod}.{d.name}: a branch in an expression")
    for x in re.findall(r"\bRs\.((?:Flow\.)?\w+)", code):
        if x not in RS_PURE and x not in RS_OPS:
            raise Unseen(f"{d.mod}.{d.name}: {x}")
    for x in re.findall(r"^\s*match (.*) with$", code, re.M):
        if not re.fullmatch(r"x_\d+", x):
            raise Unseen(f"{d.mod}.{d.name}: match {x}")
    for x in re.findall(r"^\s*\| (.*?) =>", code, re.M):
        if not x.startswith("Rs.Flow."):
            raise Unseen(f"{d.mod}.{d.name}: match {x}")

    def token(m):
        t = m.group(1)
        after = code[m.end():]
        if t in OPS:
            return "Tr." + t
        if t == "Res":
            return "Tr"
        if t.startswith("Rs.") and t[3:] in RS_OPS:
            return "Tr." + t[3:]
        if t.endswith(".foldlM"):
            raise Unseen(f"{d.mod}.{d.name}: {t}")
        head = t.split(".")[0]
        for p, _ in params:
            if head == p and "." in t and (t.split(".")[1] in FIELDS or t == "T.engine"):
                return p + "'" + t[len(p):]
        e, suffix = lookup(mods, d.mod, t)
        if e is None or not is_name(t, after, e):
            return t
        if (e.mod, e.name) in traced and e.kind == "def":
            return f"Seen.{e.mod}.{e.name}{suffix}"
        return f"Source.{e.mod}.{e.name}{suffix}"

    code = re.sub(r"\(((?:[^()]|\([^()]*\))*)\)\.foldlM \(init", r"Tr.each (\1) (init", code)
    code = TOKEN.sub(token, code)
    code = code.replace("Except.error Fault.", "Tr.fail Fault.")
    if re.search(r"Except\.|\.error\b", code):
        raise Unseen(f"{d.mod}.{d.name}: an error")
    # companions of type parameters
    for p, ty in params:
        src = "Chf.HashEngine" if ty == "Chf.HashEngine" else "Source.Sha256t.Tag"
        new = f"Tr.HashEngine {p}" if ty == "Chf.HashEngine" else f"Seen.{d.mod}.Tag"
        code = re.sub(rf"\({p} : \S*\)", f"({p} : {src}) ({p}' : {new})", code, count=1)
        code = re.sub(rf"(Seen\.\S+ cfg) {p}\b(?!')", rf"\1 {p} {p}'", code)
    if d.name == "engine":
        args = " ".join(["cfg"] + [p for p, _ in params])
        code = code.replace(": Chf.HashEngine where", f": Tr.HashEngine (Source.{d.mod}.engine {args}) where", 1)
    doc = d.doc + "\n" if d.doc else ""
    return f"{doc}{d.kind} {d.name}{code}"


def generate(texts):
    """texts: module -> Lean text of Verif/Source; the result: module -> Lean text of Verif/Seen."""
    mods = {m: parse(m, t) for m, t in texts.items()}
    traced, pure = set(), set()
    work = [mods[m][0][n] for m, ns in ROOTS.items() for n in ns]
    while work:
        d = work.pop()
        key = (d.mod, d.name)
        if key in traced or key in pure:
            continue
        if d.kind == "def" and d.may_panic:
            traced.add(key)
        else:
            pure.add(key)
            if d.kind == "def":
                check_pure(d)
        work += list(uses(mods, d))
    out = {}
    for m in ROOTS:
        defs, imports = mods[m]
        lines = [f"/- Generated from the translation of /repo/src by tools/rust2lean.py; do not edit. -/",
                 "import Verif.Seen.Prelude", f"import Verif.Source.{m}"]
        deps = sorted({d.mod for x in defs.values() if (m, x.name) in traced
                       for d in uses(mods, x) if d.mod != m and (d.mod, d.name) in traced})
        lines += [f"import Verif.Seen.{x}" for x in deps]
        lines += ["", f"namespace Chf.Seen.{m}", "open Chf", "set_option linter.unusedVariables false", ""]
        if m == "Sha256t":
            lines += ["/-- `trait Tag`: user code, observed. -/", "structure Tag where",
                      "  engine : Tr Source.Sha256t.Engine", ""]
        for d in defs.values():
            if (m, d.name) in traced:
                lines += [rewrite(mods, traced, d), ""]
        lines += [f"end Chf.Seen.{m}", ""]
        out[m] = "\n".join(lines)
    return out


def split_prod(t):
    parts, depth, cur = [], 0, ""
    for c in t:
        depth += c == "("
        depth -= c == ")"
        if c == "×" and depth == 0:
            parts.append(cur.strip())
            cur = ""
        else:
            cur += c
    return parts + [cur.strip()]


def alike(ty, a, b):
    """How two values of the type are alike, if the type is that of a parameter or local variable."""
    ty = ty.strip()
    while ty.startswith("(") and ty.endswith(")"):
        ty = ty[1:-1]
    if ty.startswith("List "):
        return f"Len {a} {b}"
    if ty.endswith("Engine"):
        return f"Len {a}.buffer {b}.buffer ∧ Len {a}.h {b}.h"
    if re.match(r"BitVec|Byte", ty):
        return None
    return f"{a} = {b}"


def proofs(texts, source):
    """Proofs about the numbered statements: module -> Lean text of Verif/Proofs/Seen/Lines*.lean."""
    out = {}
    for m, t in texts.items():
        defs, _ = parse(m, t)
        lists = [d for d in defs.values() if re.search(r"\.lines\d+$", d.name)]
        if not lists:
            continue
        L = ["/- Generated by tools/rust2lean.py; do not edit. -/", f"import Verif.Seen.{m}",
             "import Verif.Proofs.Seen.Tactic", "",
             f"/-! The numbered statements of the translated text: what is seen of each does not depend on the",
             "contents of words and arrays, and it computes what the translated statement computes. -/", "",
             f"namespace Chf.Seen.{m}", "open Chf", ""]
        src = parse(m, source[m])[0]
        for d in lists:
            base = d.name[:d.name.rindex(".")]
            k = d.name[d.name.rindex("lines") + 5:]
            state = src[f"{base}.State{k}"].head.split(":=")[1]
            comps = split_prod(state)
            par = re.findall(r"\((\w+) : ((?:[^()]|\([^()]*\))*)\)", d.head[:d.head.rindex(" : List (")])[1:]
            rel = []
            for i, c in enumerate(comps):
                proj = ".2" * i + (".1" if i + 1 < len(comps) else "")
                r = alike(c, "s" + proj, "t" + proj)
                if r:
                    rel.append(r)
            R = f"fun s t : Source.{m}.{base}.State{k} => " + (" ∧ ".join(rel) or "True")
            L += [f"/-- The states of these statements are alike. -/", f"abbrev {base}.Alike{k} :=", f"  {R}", ""]
            pat = "⟨" + ", ".join("_" * len(comps)) + "⟩"
            hpat = "h" if len(rel) == 1 else "-" if not rel else \
                "⟨" + ", ".join(f"h{i}" for i in range(len(rel))) + "⟩"
            ps, left, right, hyps = [], [], [], []
            for n, ty in par:
                r = alike(ty, n, n + "₂")
                if ty.startswith("BitVec") or r == f"{n} = {n}₂":
                    ps.append(f"({n} : {ty})")
                    left.append(n)
                    right.append(n)
                    hyps.append(None)
                else:
                    ps += [f"{{{n} {n}₂ : {ty}}}", f"(h{n} : {r})"]
                    left.append(n)
                    right.append(n + "₂")
                    hyps.append(f"h{n}")
            ps = " ".join(["(cfg : Cfg)"] + ps)
            la, ra = " ".join(["cfg"] + left), " ".join(["cfg"] + right)
            names = re.findall(r"(\S*line\d+_\d+) cfg", d.body)
            opens = [f"  obtain ⟨h{n}_1, h{n}_2⟩ := h{n}" for n, ty in par if ty.endswith("Engine")]
            for n in names:
                f = n.split(f"Seen.{m}.")[-1]
                L += [f"theorem {f}_same {ps} : ∀ s t, {base}.Alike{k} s t →",
                      f"    Tr.SameSeen {base}.Alike{k} ({f} {la} s) ({f} {ra} t) := by"] + opens + [
                      f"  rintro {pat} {pat} {hpat}",
                      f"  unfold {f}",
                      f"  try dsimp only at *",
                      f"  repeat same_step", ""]
            args = " ".join(["cfg"] + [h or n for (n, _), h in zip(par, hyps)])
            each = ",\n   ".join(f"{n.split(f'Seen.{m}.')[-1]}_same {args}" for n in names)
            L += ["set_option maxRecDepth 10000 in", f"theorem {d.name}_same {ps} :",
                  f"    Tr.SameSeen.Each (fun f g => ∀ s t, {base}.Alike{k} s t → Tr.SameSeen {base}.Alike{k} (f s) (g t))",
                  f"      ({d.name} {la}) ({d.name} {ra}) :=",
                  f"  ⟨{each}, trivial⟩", ""]
            ps2 = " ".join(f"({n} : {ty})" for n, ty in [("cfg", "Cfg")] + par)
            L += ["set_option maxRecDepth 10000 in", f"theorem {d.name}_res {ps2} :",
                  f"    ({d.name} {la}).map (fun f s => (f s).res) = Source.{m}.{d.name} {la} := rfl", ""]
        L += [f"end Chf.Seen.{m}", ""]
        out["Lines" + m] = "\n".join(L)
    return out

