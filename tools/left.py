"""Writes the modules Verif/Left/*.lean: what a translated `input` leaves in `*self` when it panics.

Used by rust2lean.py.  The input is the text of the modules Verif/Source/*.lean that rust2lean.py has
made.  `input` of every engine, and the functions it calls that take `&mut self` and may panic, are
written again as `f_left` over the monad `Left` of Verif/Left/Prelude.lean, in which a panic carries
the value that `self` has at that point:
  an operation that may panic and does not assign to `self` is wrapped in `Left.keep self`;
  a call `f self` of a function with `&mut self` becomes `f_left self`;
  such a call on a field, whose result is then stored in the field, is wrapped in `Left.field`;
  a loop that assigns to `self` becomes `Left.whileR`.
Everything else is copied.  Fails on an assignment to `self` in any other form.
"""
import re
import seen

MODULES = ["Sha1", "Sha256", "Sha512", "Sha384", "Sha512_256", "Sha256t", "Ripemd160", "Siphash24", "Hmac"]


class Unknown(Exception):
    pass


def indent(line):
    return len(line) - len(line.lstrip())


def mutates(d):
    """Whether the function takes `&mut self` and may panic."""
    m = re.search(r"\(self : ([^()]*)\)", d.head)
    return bool(m) and d.type in (f"Res {m.group(1)}", f"Res ({m.group(1)})")


def self_type(d):
    t = re.search(r"\(self : ([^()]*)\)", d.head).group(1)
    return f"({t})" if " " in t else t


class Writer:
    def __init__(self, mods, mod):
        self.mods, self.mod, self.needs, self.deps = mods, mod, [], set()

    def callee(self, text):
        """The function with `&mut self` that the text calls, if it does."""
        d = (seen.lookup(self.mods, self.mod, text.split(" ")[0]) or (None,))[0]
        return d if d is not None and mutates(d) else None

    def call(self, text):
        d = self.callee(text)
        if d.mod != self.mod:
            self.deps.add(d.mod)
        else:
            self.needs.append(d.name)
        name, rest = text.split(" ", 1)
        return f"{name}_left {rest}"

    def assigns(self, lines):
        """Whether the lines assign to `self`."""
        text = "\n".join(lines)
        return bool(re.search(r"let \(?self\b", text)) or \
            any(self.callee(x) for x in re.findall(r"(?:← |then |else )([\w.]+ .*)", text))

    def block(self, lines):
        """The lines of a block of statements, rewritten."""
        out, i = [], 0
        while i < len(lines):
            j = i + 1
            while j < len(lines) and indent(lines[j]) > indent(lines[i]):
                j += 1
            group, nxt = lines[i:j], lines[j] if j < len(lines) else ""
            out += self.statement(group, nxt)
            i = j
        return out

    def statement(self, group, nxt):
        head, pad = group[0].strip(), " " * indent(group[0])
        if head.startswith("pure "):
            return group
        if re.match(r"if .* then [\w.]+ .* else [\w.]+ .*$", head) and len(group) == 1:
            m = re.match(r"if (.*) then ([\w.]+ .*) else ([\w.]+ .*)$", head)
            return [f"{pad}if {m.group(1)} then {self.call(m.group(2))} else {self.call(m.group(3))}"]
        if re.match(r"(if .* then do|else do|match .* with|\| .* => do|\(fun \(?[\w, ]+\)? => do)$", head):
            return group[:1] + self.block(group[1:])
        if re.match(r"\| .* => pure ", head) or re.match(r"\(fun \(?[\w, ]+\)? => pure ", head):
            return group
        m = re.match(r"let ([^←]*?) := ", head)
        if m and "←" not in head:
            if len(group) > 1:
                raise Unknown(head)
            return group
        m = re.match(r"let (.*?) ←(?: (.*))?$", head)
        if not m:
            if len(group) == 1 and re.match(r"(Rs\.)?\w+ ", head) and not self.callee(head):
                return [f"{pad}Left.keep self ({head})"]
            raise Unknown(head)
        pat, e = m.group(1), m.group(2)
        if e is None:
            if self.assigns(group[1:]):
                return group[:1] + self.block(group[1:])
            return [f"{pad}let {pat} ← Left.keep self ("] + group[1:-1] + [group[-1] + ")"]
        w = re.match(r"Rs\.whileR cfg\.usizeMod$", e)
        if w and self.assigns(group[:1]):
            return [f"{pad}let {pat} ← Left.whileR (fun {pat} => self) cfg.usizeMod"] + self.block(group[1:])
        d = self.callee(e)
        if d is None and e.startswith("E.input "):
            d = e
        if d is not None:
            if len(group) > 1:
                raise Unknown(head)
            if pat == "self" and d is not e and re.search(r" self( |$)", e):
                return [f"{pad}let self ← {self.call(e)}"]
            s = re.match(r"let self := \{ self with (\w+) := (\w+) \}$", nxt.strip())
            if s and s.group(2) == pat and f" self.{s.group(1)} " in e:
                c = "E'.input " + e.split(" ", 1)[1] if d is e else self.call(e)
                return [f"{pad}let {pat} ← Left.field (fun x => {{ self with {s.group(1)} := x }}) ({c})"]
            raise Unknown(head)
        if self.assigns(group):
            raise Unknown(head)
        if len(group) == 1:
            return [f"{pad}let {pat} ← Left.keep self ({e})"]
        return [f"{pad}let {pat} ← Left.keep self ({e}"] + group[1:-1] + [group[-1] + ")"]

    def write(self, name):
        d = self.mods[self.mod][0][name]
        t = self_type(d)
        head = d.head.replace(f"def {name} ", f"def {name}_left ", 1)
        head = re.sub(r" : Res .* :=", f" : Left {t} {t} :=", head)
        head = head.replace("(E : Chf.HashEngine)", "{E : Chf.HashEngine} (E' : Left.Input E)")
        body = [x for x in d.body.split("\n") if x.strip()]
        return "\n".join([d.doc, head] + self.block(body))


def generate(texts):
    mods = {m: seen.parse(m, texts[m]) for m in texts}
    out = {}
    for m in MODULES:
        w, todo, written = Writer(mods, m), ["Engine.input"], {}
        while todo:
            n = todo.pop()
            if n not in written:
                written[n] = w.write(n)
                todo += w.needs
                w.needs = []
        order = [n for n in mods[m][0] if n in written]
        lines = ["/- Generated from the translation of /repo/src by tools/rust2lean.py; do not edit. -/",
                 "import Verif.Left.Prelude", f"import Verif.Source.{m}"]
        lines += [f"import Verif.Left.{x}" for x in sorted(w.deps)]
        lines += ["", f"namespace Chf.Source.{m}", "open Chf", "set_option linter.unusedVariables false", ""]
        for n in order:
            lines += [written[n], ""]
        lines += [f"end Chf.Source.{m}", ""]
        out[m] = "\n".join(lines)
    return out
