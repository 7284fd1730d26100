#!/usr/bin/env python3
"""Translates functions of /repo/src from Rust to Lean, statement by statement.

    rust2lean.py [--src DIR] [--out DIR] [--check]

The output goes to lean/Verif/Source/*.lean, and from there (tools/seen.py) to lean/Verif/Seen/*.lean and
lean/Verif/Proofs/Seen/Lines*.lean, and (tools/left.py) to lean/Verif/Left/*.lean; `--check` only compares it with what is there.

The translation does not know the model.  It parses the Rust text (tools/rustparse.py), expands the
`macro_rules!` macros, infers the integer types and writes a `do` block in the monad `Res`:

* every operation that may panic becomes a call of a primitive of Verif/Rust.lean or
  Verif/Source/Prelude.lean, in Rust's order of evaluation;
* a `&mut` argument becomes an argument and a result;
* an assignment rebinds the variable; the variables assigned in a branch or loop are its result;
* `while` runs `Rs.whileR` with a budget of one iteration per value of `usize`;
* a run of at least `RUN` macro calls or assignments becomes a list of functions on the variables
  they assign (`.lines1`, ..), to be run one after the other.

Functions it cannot translate are listed at the end of the file they are missing from.
"""

import argparse
import os
import sys

sys.path.insert(0, os.path.dirname(os.path.abspath(__file__)))
import left  # noqa: E402
import seen  # noqa: E402
from rustparse import Unsupported, Expander, Node, collect_macros, lex, parse_module  # noqa: E402

RUN = 12
INTS = {"u8": 8, "u16": 16, "u32": 32, "u64": 64, "u128": 128, "i64": 64, "i32": 32}
BOUNDS = {"HashEngine": "Chf.HashEngine", "Tag": "Tag", "const": "Nat", "Hasher": "Rs.Hasher",
          "SerdeHash": "SerdeHash", "FromStr": "SerdeHash"}
HOME = {"Tag": "sha256t", "SerdeHash": "serde_macros"}  # modules of the dictionaries
NO_DICT = ("AsRef", "SliceIndex", "Serializer", "Deserializer", "Error")
RESERVED = {"end", "from", "at", "in", "do", "then", "else", "let", "have", "show", "fun", "match",
            "with", "where", "open", "section", "namespace", "variable", "def", "if", "for",
            "return", "instance", "mut", "by", "cfg", "E", "T", "index", "indexSet", "sliceTo",
            "sliceFrom", "copyIntoRange", "chunksExact", "min", "max", "pure", "decide", "assertR",
            "debugAssert", "addUsize", "subUsize", "mulUsize"}
LEANMOD = {"cmp": "Cmp", "sha1": "Sha1", "sha256": "Sha256", "sha512": "Sha512",
           "ripemd160": "Ripemd160", "siphash24": "Siphash24", "hmac": "Hmac",
           "sha256t": "Sha256t", "sha384": "Sha384", "sha512_256": "Sha512_256", "lib": "Lib",
           "impls": "Impls", "serde_macros": "SerdeMacros", "rs": "Rs"}
DEPS = {"sha384": ["sha512"], "sha512_256": ["sha512"], "sha256t": ["sha256"],
        "impls": ["sha1", "sha256", "sha512", "ripemd160", "siphash24", "hmac", "sha256t"]}
ORDER = ["lib", "cmp", "serde_macros", "sha1", "sha256", "sha512", "ripemd160", "siphash24", "hmac", "sha256t",
         "sha384", "sha512_256", "impls"]
# the types of other crates that are used field by field
EXTERN = """
struct SchemaObject { is_string: bool, string: Option<StringValidation> }
struct StringValidation { max_length: Option<u32>, min_length: Option<u32>, pattern: Option<String> }
"""
SIMD = {"_mm_set_epi64x", "_mm_add_epi32", "_mm_shuffle_epi32", "_mm_alignr_epi8",
        "_mm_blend_epi16", "_mm_shuffle_epi8", "_mm_sha256rnds2_epu32", "_mm_sha256msg1_epu32",
        "_mm_sha256msg2_epu32"}


# ---------------------------------------------------------------- types

class Ty:
    def __init__(self, kind, *args):
        self.kind, self.args = kind, list(args)

    def __repr__(self):
        return f"{self.kind}{self.args}"


class TVar:
    def __init__(self, is_int=False):
        self.ref, self.is_int = None, is_int


def prune(t):
    while isinstance(t, TVar) and t.ref is not None:
        t = t.ref
    return t


USIZE, BOOL, UNIT, NEVER, M128 = Ty("int", "usize"), Ty("bool"), Ty("unit"), Ty("never"), Ty("m128")


def INT(n):
    return Ty("int", n)


def LIST(t):
    return Ty("list", t)


def unify(a, b, line):
    a, b = prune(a), prune(b)
    if a is b:
        return a
    if isinstance(a, TVar):
        if isinstance(b, TVar):
            b.is_int = b.is_int or a.is_int
        elif a.is_int and b.kind not in ("int",):
            raise Unsupported(f"line {line}: integer expected, found {b}")
        a.ref = b
        return b
    if isinstance(b, TVar):
        return unify(b, a, line)
    if a.kind == "never":
        return b
    if b.kind == "never":
        return a
    if a.kind != b.kind or len(a.args) != len(b.args):
        raise Unsupported(f"line {line}: types {a} and {b}")
    if a.kind == "int" or a.kind == "param":
        if a.args != b.args:
            raise Unsupported(f"line {line}: types {a} and {b}")
        return a
    if a.kind in ("struct", "assoc"):
        if a.args[:2] != b.args[:2]:
            raise Unsupported(f"line {line}: types {a} and {b}")
        return a
    if a.kind in ("list", "tuple", "result", "iter", "option"):
        for x, y in zip(a.args, b.args):
            unify(x, y, line)
    return a


# ---------------------------------------------------------------- variables and output contexts

class Var:
    count = 0

    def __init__(self, lean, ty, depth):
        Var.count += 1
        self.lean, self.ty, self.depth, self.seq = lean, ty, depth, Var.count
        self.init = True
        self.default_on_run = False


class Ctx:
    """Lines of one `do` block."""

    def __init__(self, parent, frame, depth):
        self.parent, self.frame, self.depth = parent, frame, depth
        self.lines, self.ind = [], 0
        self.effect, self.has_ret, self.diverged = False, False, False
        self.assigned, self.reads, self.declared = {}, {}, {}
        self.value = None


class Frame:
    """What `return` (or `break`) leaves: a function or a loop."""

    def __init__(self, kind, root=None):
        self.kind, self.root, self.used, self.returns = kind, root, False, False


def paren(s):
    if all(ch.isalnum() or ch in "_.'#«»" for ch in s) or (s[0] == "(" and closes(s)) or (
            s[0] == "[" and closes(s)):
        return s
    return "(" + s + ")"


def closes(s):
    depth = 0
    for i, ch in enumerate(s):
        if ch in "([{":
            depth += 1
        elif ch in ")]}":
            depth -= 1
            if depth == 0 and i < len(s) - 1:
                return False
    return True


def tup(xs):
    return "()" if not xs else xs[0] if len(xs) == 1 else "(" + ", ".join(xs) + ")"


def indent(lines, n):
    return [" " * n + x for x in lines]


# ---------------------------------------------------------------- the translator

class Translator:
    def __init__(self, mods):
        self.mods = mods
        self.done = {}       # (module, key) -> compiled function
        self.order = {m: [] for m in mods}
        self.failed = {m: [] for m in mods}

    # -- names and types
    def resolve_ty(self, t, f):
        if t == "self":
            return self.self_ty(f)
        k = t.kind
        if k == "tref":
            return self.resolve_ty(t.inner, f)
        if k in ("tarr", "tslice"):
            return LIST(self.resolve_ty(t.elem, f))
        if k == "ttuple":
            els = [self.resolve_ty(x, f) for x in t.elems]
            return Ty("tuple", *els) if els else UNIT
        if k == "tptr":
            return Ty("ptr")
        if k == "tinfer":
            return TVar()
        assert k == "path", k
        if t.qself is not None:
            base = self.resolve_ty(t.qself[0], f)
            return self.assoc_ty(base, t.segs[-1], f, t.line)
        segs = [s for s in t.segs if s not in ("crate", "self", "super")]
        name = segs[-1]
        if len(segs) == 1 and name in INTS or name == "usize" and len(segs) == 1:
            return INT(name)
        if name == "bool":
            return BOOL
        if name == "__m128i":
            return M128
        if name == "PhantomData":
            return UNIT
        if name == "Vec" and len(segs) == 1:
            return LIST(self.resolve_ty(t.gens[-1][0], f))
        if name == "Ordering":
            return Ty("ordering")
        if name == "str" and len(segs) == 1:
            return LIST(INT("u8"))
        if name == "String":
            return LIST(INT("u8"))
        if name == "Formatter":
            return Ty("formatter")
        if name == "SchemaGenerator":
            return Ty("schemagen")
        if name in ("SchemaObject", "Schema", "StringValidation"):
            name = name if name != "Schema" else "SchemaObject"
            return Ty("struct", "rs", name, self.mods["rs"].structs[name])
        if name == "HexToArrayError":
            return Ty("hexerror")
        if segs[-2:] == ["fmt", "Result"]:
            return Ty("fmtresult")
        if segs[-2:-1] == ["ops"] and name in ("Range", "RangeFrom", "RangeTo", "RangeFull"):
            return Ty("sliceindex", name)
        if name == "Option":
            return Ty("option", self.resolve_ty(t.gens[-1][0], f))
        if segs[-2:] == ["bitcoin_io", "Error"]:
            return Ty("ioerror")
        if name == "Result" and len(t.gens[-1]) == 1:
            return Ty("result", Ty("ioerror"), self.resolve_ty(t.gens[-1][0], f))
        if name == "Result":
            return Ty("result", self.resolve_ty(t.gens[-1][1], f), self.resolve_ty(t.gens[-1][0], f))
        if segs == ["Self"]:
            return self.self_ty(f)
        if len(segs) == 2 and segs[0] == "Self":
            return self.assoc_ty(self.self_ty(f), segs[1], f, t.line)
        bound = dict(self.gens_of(f)).get(name) if len(segs) == 1 else None
        if bound == "SliceIndex":
            return Ty("sliceindex", "SliceIndex")
        if len(segs) == 2 and dict(self.gens_of(f)).get(segs[0]) == "SliceIndex":
            return LIST(INT("u8"))
        if bound == "AsRef":
            return LIST(INT("u8"))
        if bound in ("Serializer", "Deserializer"):
            return Ty(bound.lower())
        if bound == "Error":
            return Ty("deerror")
        if len(segs) == 2 and dict(self.gens_of(f)).get(segs[0]) == "Serializer":
            return Ty("ser" + name.lower())
        if len(segs) == 2 and dict(self.gens_of(f)).get(segs[0]) == "Deserializer" and name == "Error":
            return Ty("deerror")
        if bound is not None and bound.startswith("IntoIterator "):
            return LIST(self.resolve_ty(Node("path", t.line, segs=[bound.split()[1]], gens=[[]],
                                             qself=None, mark=()), f))
        if len(segs) == 1 and any(g[0] == name for g in self.gens_of(f)):
            return Ty("param", name)
        if len(segs) == 2 and any(g[0] == segs[0] for g in self.gens_of(f)):
            return self.assoc_ty(Ty("param", segs[0]), segs[1], f, t.line)
        mod = self.mods[segs[0]] if len(segs) == 2 and segs[0] in self.mods else f.mod
        if name == "FromSliceError":
            mod = self.mods["lib"]
        if name in mod.structs:
            d = mod.structs[name]
            return Ty("struct", mod.name, name, d)
        raise Unsupported(f"line {t.line}: type {'::'.join(t.segs)}")

    def gens_of(self, f):
        return (f.owner.gens if f.owner is not None else []) + f.gens

    def self_ty(self, f):
        if getattr(f.owner, "is_trait", False):
            return Ty("param", "Self")
        return self.resolve_ty(Node("path", f.line, segs=f.owner.target.segs, gens=[[]], qself=None,
                                    mark=()), f)

    def assoc_ty(self, base, name, f, line):
        base = prune(base)
        if base.kind == "param":
            return LIST(INT("u8")) if name == "Digest" else Ty("assoc", base.args[0], name)
        mod = self.mods[base.args[0]]
        for o in mod.impl_traits.get(base.args[1], []):
            if name in o.assoc:
                g = next((h for h in mod.fns.values() if h.owner is o), None)
                return self.resolve_ty(o.assoc[name], g or f)
        raise Unsupported(f"line {line}: associated type {name}")

    def struct_params(self, d):
        return [g[0] for g in d.gens if g[1] == "HashEngine"]

    def lean_ty(self, t, mod):
        t = prune(t)
        if isinstance(t, TVar):
            raise Unsupported("unresolved type")
        k = t.kind
        if k == "int":
            n = t.args[0]
            return "Nat" if n == "usize" else "Byte" if n == "u8" else f"BitVec {INTS[n]}"
        if k == "bool":
            return "Bool"
        if k == "unit":
            return "Unit"
        if k == "m128":
            return "BitVec 128"
        if k == "list":
            return "List " + paren(self.lean_ty(t.args[0], mod))
        if k == "tuple":
            return " × ".join(paren(self.lean_ty(x, mod)) for x in t.args)
        if k == "ordering":
            return "Ordering"
        if k == "ioerror":
            return "Rs.IoError"
        if k == "hexerror":
            return "Hex.Error"
        if k == "formatter":
            return "Hex.Flags"
        if k == "fmtresult":
            return "List Byte"
        if k == "sliceindex":
            return "Rs." + t.args[0]
        if k == "option":
            return "Option " + paren(self.lean_ty(t.args[0], mod))
        if k in ("serializer", "deserializer", "deerror", "schemagen"):
            return {"serializer": "Rs.Serializer", "deserializer": "Rs.Deserializer",
                    "deerror": "Rs.DeError", "schemagen": "Rs.SchemaGenerator"}[k]
        if k == "result" and prune(t.args[0]).kind == "sererror":
            return "Rs.Serialized"
        if k == "result":
            return "Except " + " ".join(paren(self.lean_ty(x, mod)) for x in t.args)
        if k == "param":
            return t.args[0] + ".State"
        if k == "assoc":
            return t.args[0] + "." + t.args[1]
        if k == "struct":
            name = self.lean_name(t.args[0], t.args[1], mod)
            ps = self.struct_params(t.args[2])
            return name + "".join(" " + p for p in ps)
        raise Unsupported(f"type {t}")

    def lean_name(self, mod, name, cur):
        name = name.replace("::", ".")
        return name if mod == cur and not self.captured(mod, name) else LEANMOD[mod] + "." + name

    def captured(self, mod, name):
        """In the Lean definition of a method, would another item of the module be meant?"""
        m = self.mods[mod]
        return any(k.replace("::", ".").endswith("." + name) for k in list(m.consts) + list(m.fns))

    # -- constants
    def const_eval(self, e, f):
        if e.kind == "int":
            return e.value
        if e.kind == "binary":
            a, b = self.const_eval(e.a, f), self.const_eval(e.b, f)
            v = {"+": a + b, "-": a - b, "*": a * b, "/": a // b if b else None,
                 "%": a % b if b else None}[e.op]
            if v is None or v < 0:
                raise Unsupported(f"line {e.line}: constant expression")
            return v
        if e.kind == "path":
            c = self.find_const(e, f)
            if c is not None:
                return self.const_eval(c[1].val, c[2])
        raise Unsupported(f"line {e.line}: not a constant")

    def is_const(self, e, f):
        try:
            self.const_eval(e, f)
            return True
        except Unsupported:
            return False

    def find_const(self, e, f):
        """(module, const item, a function to resolve its names in) of a path."""
        segs = [s for s in e.segs if s not in ("crate", "self", "super")]
        mod = f.mod
        if e.qself is not None:
            base = prune(self.resolve_ty(e.qself[0], f))
            if base.kind != "struct":
                return None
            mod = self.mods[base.args[0]]
            key = base.args[1] + "::" + segs[-1]
        elif len(segs) == 2 and segs[0] in self.mods:
            mod, key = self.mods[segs[0]], segs[1]
        elif len(segs) == 2 and segs[0] == "Self" and not getattr(f.owner, "is_trait", False):
            key = f.owner.name + "::" + segs[1]
        else:
            key = "::".join(segs)
        if key in mod.consts and mod.consts[key].val is not None:
            g = next((h for h in mod.fns.values()), f)
            return key, mod.consts[key], g
        return None

    # -- functions
    def find_fn(self, mod, key):
        return self.mods[mod].fns.get(key)

    def compiled(self, mod, key):
        k = (mod, key)
        if k not in self.done:
            f = self.find_fn(mod, key)
            self.done[k] = "running"
            try:
                self.done[k] = FnCompiler(self, f).run()
                self.order[mod].append(key)
            except Unsupported as e:
                self.done[k] = e
                self.failed[mod].append((key, f, str(e)))
        d = self.done[k]
        if d == "running":
            raise Unsupported(f"recursive call of {key}")
        if isinstance(d, Unsupported):
            raise Unsupported(f"calls {key}")
        return d


class Compiled:
    pass


def bound_name(b, mod):
    d = BOUNDS[b]
    return d if HOME.get(d, mod) == mod else LEANMOD[HOME[d]] + "." + d


class FnCompiler:
    def __init__(self, tr, f):
        self.tr, self.f, self.mod = tr, f, f.mod.name
        self.temps, self.lines_count, self.aux = 0, 0, []
        self.scopes = [{}]
        self.depth = 0
        self.epoch = 0

    def err(self, node, msg):
        raise Unsupported(f"line {node.line}: {msg}")

    # ======== signature
    def run(self):
        f, tr = self.f, self.tr
        if f.sig_error is not None:
            raise Unsupported(f.sig_error)
        if f.body is None:
            raise Unsupported("no body")
        for g in tr.gens_of(f):
            if g[1] not in BOUNDS and g[1] not in NO_DICT and \
                    not str(g[1]).startswith("IntoIterator "):
                raise Unsupported(f"generic parameter {g[0]}")
        self.gens = [(n, bound_name(b, self.mod)) for n, b in tr.gens_of(f) if b in BOUNDS]
        self.params, self.outs = [], []
        for name, mark, ty, mode in f.params:
            t = tr.resolve_ty(ty, f)
            v = self.declare(name, mark, t)
            self.params.append((v, mode))
            if mode == "mut":
                self.outs.append(v)
        self.ret = tr.resolve_ty(f.ret, f) if f.ret is not None else UNIT
        self.depth = 1
        self.infer_block(f.body, self.ret, new_scope=True)
        self.depth = 1

        self.frame = Frame("fn")
        ctx = Ctx(None, self.frame, 2)
        self.frame.root = ctx
        self.cur = ctx
        val = self.block_value(f.body, inline=True)
        if not ctx.diverged:
            self.cur.value = self.result_of(val)
        c = Compiled()
        c.f, c.pure, c.outs = f, not ctx.effect, [v.lean for v in self.outs]
        c.ret = self.ret
        c.gens = [g[0] for g in self.gens]
        comps = [] if prune(self.ret).kind == "unit" else [self.ret]
        comps += [v.ty for v in self.outs]
        rt = (" × ".join(paren(tr.lean_ty(t, self.mod)) for t in comps)) if comps else "Unit"
        args = "".join(f" ({v.lean} : {tr.lean_ty(v.ty, self.mod)})" for v, _ in self.params)
        gens = "".join(f" ({n} : {b})" for n, b in self.gens)
        body = list(ctx.lines)
        if ctx.effect:
            head = f"def @NAME@ (cfg : Cfg){gens}{args} : Res {paren(rt)} := do"
            if not ctx.diverged:
                body.append(" " * ctx.ind + "pure " + paren(ctx.value))
        else:
            head = f"def @NAME@ (cfg : Cfg){gens}{args} : {rt} :="
            body.append(" " * ctx.ind + ctx.value)
        c.head, c.body, c.aux = head, body, self.aux
        c.name = f.key.replace("::", ".")
        if f.ret is not None and f.ret != "self" and f.ret.kind == "tref" and f.ret.mut:
            self.mut_result(c)
        c.call_args = "".join(" " + v.lean for v, _ in self.params)
        return c

    def mut_result(self, c):
        """A result `&mut Self` made of a `&mut` argument: its value, and the function that takes the
        value it has when the borrow ends to that of the argument."""
        e = self.f.body.tail
        while e is not None and e.kind in ("block", "ref"):
            e = e.tail if e.kind == "block" else e.e
        if e is None or not hasattr(e, "newtype") or [v.lean for v in self.outs] != [e.newtype.var.lean] or \
                not c.pure or self.f.body.stmts:
            raise Unsupported("mutable reference as result")
        ty = self.tr.lean_ty(self.ret, self.mod)
        arg = self.tr.lean_ty(self.outs[0].ty, self.mod)
        c.head = c.head.rsplit(" : ", 1)[0] + f" : {ty} × ({ty} → {arg}) :="
        c.body = [f"({self.expr(e)}, fun r => r.{prune(self.ret).args[2].fields[0][0]})"]

    def result_of(self, val):
        comps = [] if prune(self.ret).kind == "unit" else [val]
        comps += [v.lean for v in self.outs]
        for v in self.outs:
            self.read(v)
        return tup(comps)

    # ======== scopes
    def declare(self, name, mark, ty):
        base = name + "'" * len(mark)
        if self.f.body is not None and mark and mark == self.body_mark():
            base = name + "'" * 0
        elif self.body_mark():
            base = name + "'" * max(0, len(mark) - len(self.body_mark()))
        if name == "_" or name.startswith("_"):
            base = base.lstrip("_") or "unused"
        if base in RESERVED:
            base += "_"
        lean, k = base, 0
        while any(v.lean == lean and v.depth < self.depth for sc in self.scopes
                  for v in sc.values()):
            k += 1
            lean = f"{base}_{k}"
        v = Var(lean, ty, self.depth)
        self.scopes[-1][(name, mark)] = v
        return v

    def body_mark(self):
        """The hygiene mark of a function that a macro defines as a whole."""
        m = [p[1] for p in self.f.params]
        return m[0] if m else ()

    def lookup(self, name, mark):
        for sc in reversed(self.scopes):
            if (name, mark) in sc:
                return sc[(name, mark)]
        return None

    # ======== type inference
    def infer_block(self, b, want=None, new_scope=True):
        if new_scope:
            self.scopes.append({})
            self.depth += 1
        last = b.stmts[-1] if b.stmts else None
        if b.tail is None and last is not None and last.kind == "smacro" and not last.semi:
            # a macro call in tail position whose expansion is an expression with a value
            x = last.stmts[0] if len(last.stmts) == 1 else None
            if (x is not None and x.kind == "sexpr" and not x.semi and x.e.kind == "block"
                    and x.e.tail is not None):
                b.tail = x.e
                b.stmts = b.stmts[:-1]
        for s in b.stmts:
            self.infer_stmt(s)
        t = UNIT
        if b.tail is not None:
            t = self.infer(b.tail, want)
        elif b.stmts and self.diverges(b.stmts[-1]):
            t = NEVER
        if want is not None and not (prune(want).kind == "unit" and t is UNIT):
            unify(t, want, b.line)
        if new_scope:
            self.scopes.pop()
            self.depth -= 1
        b.ty = t
        return t

    def diverges(self, s):
        if s.kind == "sexpr":
            e = s.e
            if e.kind in ("return", "break"):
                return True
            if e.kind == "builtin" and e.name == "unreachable":
                return True
            if e.kind == "if" and e.els is not None:
                return self.block_diverges(e.then) and self.block_diverges(e.els)
        return False

    def block_diverges(self, b):
        if b.kind == "if":
            return b.els is not None and self.block_diverges(b.then) and self.block_diverges(b.els)
        if b.kind != "block":
            return False
        if b.tail is not None:
            return b.tail.kind in ("return", "break")
        return bool(b.stmts) and self.diverges(b.stmts[-1])

    def infer_stmt(self, s):
        if s.kind == "let":
            t = self.tr.resolve_ty(s.ty, self.f) if s.ty is not None else None
            if s.init is not None:
                it = self.infer(s.init, t)
                t = unify(it, t, s.line) if t is not None else it
            elif t is None:
                t = None
            self.infer_pat(s.pat, t, s.init is not None)
        elif s.kind == "sexpr":
            self.infer(s.e)
        elif s.kind == "smacro":
            for x in s.stmts:
                self.infer_stmt(x)
        else:
            self.err(s, "statement " + s.kind)

    def infer_pat(self, p, t, init=True):
        if p.kind == "pident":
            p.var = self.declare(p.name, p.mark, t if t is not None else TVar())
            p.var.init = init
        elif p.kind == "ptuple":
            if t is None:
                for q in p.elems:
                    self.infer_pat(q, None, init)
            else:
                t = prune(t)
                if isinstance(t, TVar) or t.kind != "tuple" or len(t.args) != len(p.elems):
                    self.err(p, f"tuple pattern for {t}")
                for q, x in zip(p.elems, t.args):
                    self.infer_pat(q, x, init)
        elif p.kind != "pwild":
            self.err(p, "pattern " + p.kind)

    def infer(self, e, want=None):
        e.ty = getattr(self, "inf_" + e.kind, self.inf_bad)(e, want)
        return e.ty

    def inf_bad(self, e, want):
        self.err(e, "expression " + e.kind)

    def inf_int(self, e, want):
        if e.suffix is not None:
            return INT(e.suffix)
        t = TVar(True)
        if want is not None:
            w = prune(want)
            if isinstance(w, TVar) or w.kind == "int":
                return unify(t, want, e.line)
        return t

    def inf_bool(self, e, want):
        return BOOL

    def inf_str(self, e, want):
        return Ty("str")

    def inf_path(self, e, want):
        f, tr = self.f, self.tr
        if len(e.segs) == 1 and e.qself is None:
            v = self.lookup(e.segs[0], e.mark)
            if v is not None:
                e.res, e.var = "var", v
                return v.ty
        if self.const_param(e) is not None:
            e.res = "constparam"
            return USIZE
        c = tr.find_const(e, f)
        if c is not None:
            e.res, e.const = "const", c
            return tr.resolve_ty(c[1].ty, c[2])
        if e.segs[-1] == "PhantomData":
            e.res = "unit"
            return UNIT
        base = None
        if e.qself is not None:
            base = prune(tr.resolve_ty(e.qself[0], f))
        elif len(e.segs) == 2 and any(g[0] == e.segs[0] for g in tr.gens_of(f)):
            base = Ty("param", e.segs[0])
        if base is not None and base.kind == "param" and e.segs[-1] == "BLOCK_SIZE":
            e.res, e.param = "paramconst", base.args[0]
            return USIZE
        self.err(e, "name " + "::".join(e.segs))

    def inf_field(self, e, want):
        t = prune(self.infer(e.e))
        if isinstance(t, Ty) and t.kind == "struct":
            d = t.args[2]
            for n, ft in d.fields:
                if n == e.name:
                    return self.tr.resolve_ty(ft, self.struct_scope(t))
        if isinstance(t, Ty) and t.kind == "tuple" and e.name[1:].isdigit():
            e.tupidx = (int(e.name[1:]), len(t.args))
            return t.args[int(e.name[1:])]
        self.err(e, f"field {e.name} of {t}")

    def struct_scope(self, t):
        """A function-like scope in which the field types of a struct are resolved."""
        class S:
            pass
        s = S()
        s.mod, s.gens, s.line = self.tr.mods[t.args[0]], t.args[2].gens, 0
        s.owner = None
        return s

    def inf_index(self, e, want):
        t = prune(self.infer(e.e))
        if isinstance(t, Ty) and t.kind == "struct" and self.tr.mods[t.args[0]].index_impls.get(t.args[1]):
            e.via_field = True
            t = self.tr.resolve_ty(t.args[2].fields[0][1], self.struct_scope(t))
        if isinstance(t, Ty) and t.kind == "param" and self.serde_param(t) and e.i.kind == "range" and \
                e.i.lo is None and e.i.hi is None:
            e.dict = t.args[0]
            return LIST(INT("u8"))
        if not (isinstance(t, Ty) and t.kind == "list"):
            self.err(e, f"index into {t}")
        if e.i.kind == "range":
            for x in (e.i.lo, e.i.hi):
                if x is not None:
                    unify(self.infer(x, USIZE), USIZE, e.line)
            return t
        ti = prune(self.infer(e.i, USIZE))
        if isinstance(ti, Ty) and ti.kind == "sliceindex":
            e.by = ti.args[0]
            return t
        unify(ti, USIZE, e.line)
        return t.args[0]

    def serde_param(self, t):
        return dict(self.tr.gens_of(self.f)).get(t.args[0]) in ("SerdeHash", "FromStr")

    def serde_dict(self, t, e):
        """The dictionary of a type with the trait `SerdeHash`."""
        if t.kind == "param" and self.serde_param(t):
            return t.args[0]
        if t.kind == "struct":
            o = next((o for o in self.tr.mods[t.args[0]].impl_traits.get(t.args[1], [])
                      if o.trait == "SerdeHash"), None)
            if o is not None:
                name = self.tr.lean_name(t.args[0], t.args[1] + "::serdeHash", self.mod)
                return "(" + " ".join([name, "cfg"] + [n for n, b in o.gens if b in BOUNDS]) + ")"
        self.err(e, "SerdeHash")

    def expected(self, e):
        """An argument `&dyn Expected`: a string, or a visitor."""
        while e.kind == "ref":
            e = e.e
        if e.kind == "str":
            return "(ascii " + e.text + ")"
        t = prune(e.ty)
        g = self.tr.find_fn(t.args[0], t.args[1] + "::Visitor::expecting") if t.kind == "struct" else None
        if g is None:
            self.err(e, "Expected")
        c = self.tr.compiled(g.mod.name, g.key)
        if not c.pure:
            self.err(e, "Expected")
        name = self.tr.lean_name(g.mod.name, g.key, self.mod)
        return "(" + " ".join([name, "cfg"] + c.gens + [paren(self.expr(e)), "{ alternate := false }"]) + ")"

    def inf_utf8ok(self, e, want):
        unify(self.infer(e.e), LIST(INT("u8")), e.line)
        return BOOL

    def inf_try(self, e, want):
        t, r = prune(self.infer(e.e)), prune(self.ret)
        if t.kind != "result" or r.kind != "result":
            self.err(e, "`?`")
        unify(t.args[0], r.args[0], e.line)
        return t.args[1]

    def inf_flags(self, e, want):
        return Ty("formatter")

    def inf_unary(self, e, want):
        return self.infer(e.e, want)

    def inf_deref(self, e, want):
        ts, x = [], e.e
        while x.kind == "cast" and x.to.kind == "tptr":
            ts.append(x.to)
            x = x.e
        if ts:
            # `&*(bytes as *const _ as *const Self)`: the one field of `Self` that has a size
            to = prune(self.tr.resolve_ty(ts[0].inner, self.f))
            if to.kind != "struct" or x.kind != "path":
                self.err(e, "pointer cast")
            sc = self.struct_scope(to)
            fts = [prune(self.tr.resolve_ty(ft, sc)) for _, ft in to.args[2].fields]
            if any(t.kind != "unit" for t in fts[1:]):
                self.err(e, "pointer cast")
            unify(self.infer(x), fts[0], e.line)
            e.newtype = x
            return to
        return self.infer(e.e, want)

    def inf_ref(self, e, want):
        return self.infer(e.e, want)

    def inf_binary(self, e, want):
        if e.op in ("&&", "||"):
            self.infer(e.a, BOOL)
            self.infer(e.b, BOOL)
            return BOOL
        if e.op in ("<<", ">>"):
            t = self.infer(e.a, want)
            self.infer(e.b)
            return t
        if e.op in ("==", "!=", "<", ">", "<=", ">="):
            a = self.infer(e.a)
            b = self.infer(e.b, a)
            unify(a, b, e.line)
            return BOOL
        a = self.infer(e.a, want)
        b = self.infer(e.b, a)
        return unify(a, b, e.line)

    def inf_cast(self, e, want):
        t = self.tr.resolve_ty(e.to, self.f)
        if e.e.kind == "int" and e.e.suffix is None:
            self.infer(e.e, t)
        else:
            self.infer(e.e)
        return t

    def inf_assign(self, e, want):
        t = self.infer(e.place)
        unify(self.infer(e.e, t), t, e.line)
        return UNIT

    def inf_opassign(self, e, want):
        t = self.infer(e.place)
        if e.op in ("<<", ">>"):
            self.infer(e.e)
        else:
            unify(self.infer(e.e, t), t, e.line)
        return UNIT

    def inf_tuple(self, e, want):
        ws = [None] * len(e.elems)
        if want is not None and isinstance(prune(want), Ty) and prune(want).kind == "tuple":
            ws = prune(want).args
        if not e.elems:
            return UNIT
        return Ty("tuple", *[self.infer(x, w) for x, w in zip(e.elems, ws)])

    def inf_array(self, e, want):
        t = TVar()
        if want is not None and isinstance(prune(want), Ty) and prune(want).kind == "list":
            t = prune(want).args[0]
        for x in e.elems:
            unify(self.infer(x, t), t, e.line)
        return LIST(t)

    def inf_repeat(self, e, want):
        t = TVar()
        if want is not None and isinstance(prune(want), Ty) and prune(want).kind == "list":
            t = prune(want).args[0]
        unify(self.infer(e.e, t), t, e.line)
        if self.const_param(e.n) is None:
            self.tr.const_eval(e.n, self.f)
        return LIST(t)

    def const_param(self, e):
        """The name of a `const` generic parameter, or None."""
        if e.kind == "path" and len(e.segs) == 1 and dict(self.tr.gens_of(self.f)).get(e.segs[0]) == "const":
            return e.segs[0]
        return None

    def inf_struct(self, e, want):
        t = prune(self.tr.resolve_ty(e.path, self.f))
        sc = self.struct_scope(t)
        fts = dict(t.args[2].fields)
        for n, x in e.fields:
            ft = self.tr.resolve_ty(fts[n], sc)
            unify(self.infer(x, ft), ft, e.line)
        if e.base is not None:
            unify(self.infer(e.base, t), t, e.line)
        return t

    def inf_if(self, e, want):
        unify(self.infer(e.cond, BOOL), BOOL, e.line)
        t = self.infer_block(e.then, want)
        if e.els is None:
            return UNIT
        u = self.infer(e.els, want) if e.els.kind == "if" else self.infer_block(e.els, want)
        return unify(t, u, e.line)

    def inf_block(self, e, want):
        return self.infer_block(e, want)

    def inf_while(self, e, want):
        unify(self.infer(e.cond, BOOL), BOOL, e.line)
        self.infer_block(e.body)
        return UNIT

    def inf_match(self, e, want):
        t = self.infer(e.e)
        r = TVar() if want is None else want
        for p, x in e.arms:
            if p.kind == "prange":
                unify(self.infer(p.lo, t), t, e.line)
                unify(self.infer(p.hi, t), t, e.line)
            elif p.kind != "pwild":
                self.err(e, "match pattern")
            self.scopes.append({})
            self.depth += 1
            r = unify(self.infer(x, r), r, e.line)
            self.scopes.pop()
            self.depth -= 1
        return r

    def inf_return(self, e, want):
        if e.e is not None:
            unify(self.infer(e.e, self.ret), self.ret, e.line)
        return NEVER

    def inf_break(self, e, want):
        return NEVER

    def inf_builtin(self, e, want):
        n = e.name
        if n in ("assert", "debug_assert"):
            unify(self.infer(e.args[0], BOOL), BOOL, e.line)
            return UNIT
        if n in ("debug_assert_eq", "assert_eq"):
            a = self.infer(e.args[0])
            unify(self.infer(e.args[1], a), a, e.line)
            return UNIT
        if n == "unreachable":
            return NEVER
        if n == "is_x86_feature_detected":
            return BOOL
        if n == "fmt_hex_exact":
            self.infer(e.args[0])
            unify(self.infer(e.args[2]), LIST(INT("u8")), e.line)
            if e.args[3].kind != "path" or e.args[3].segs[-2] != "Case":
                self.err(e, "case of " + n)
            e.n, e.case = self.tr.const_eval(e.args[1], self.f), e.args[3].segs[-1].lower()
            return Ty("fmtresult")
        if n == "write":
            self.infer(e.args[0])
            text = e.args[1].text
            if "\\" in text or e.args[1].kind != "str":
                self.err(e, "format string")
            text = text[1:-1]
            ts = [prune(self.infer(a)) for a in e.args[2:]]
            if text == "{:#}" and len(ts) == 1 and ts[0].kind == "struct":
                g = self.tr.find_fn(ts[0].args[0], ts[0].args[1] + "::Display::fmt")
                if g is None:
                    self.err(e, "Display")
                e.form = "fn"
                return self.inf_fncall(e, g, [e.args[2], Node("flags", e.line)], recv_done=True)
            e.form, e.parts = "text", text.split("{}")
            if len(e.parts) != len(ts) + 1 or any("{" in x or "}" in x for x in e.parts) or \
                    any(t.kind != "int" for t in ts):
                self.err(e, "format string")
            return Ty("fmtresult")
        self.err(e, n)

    # -- iteration headers
    def inf_for(self, e, want):
        """Classifies the iterator expression; sets e.form."""
        it = e.it
        self.scopes.append({})
        self.depth += 1
        if it.kind == "range":
            t = TVar(True)
            unify(self.infer(it.lo, t), t, e.line)
            unify(self.infer(it.hi, t), t, e.line)
            unify(t, USIZE, e.line)
            e.form = "range"
            self.infer_pat(e.pat, USIZE)
        elif is_method(it, "enumerate") and is_method(it.recv, "iter"):
            t = prune(self.infer(it.recv.recv))
            e.form, e.src = "enumerate", it.recv.recv
            self.infer_pat(e.pat, Ty("tuple", USIZE, t.args[0]))
        elif is_method(it, "zip"):
            a, b = it.recv, it.args[0]
            if is_method(a, "iter_mut"):
                ta = prune(self.infer(a.recv))
                e.form, e.dst = "zipmut", a.recv
                tb, e.src = self.infer_iter(b)
                self.infer_pat(e.pat, Ty("tuple", ta.args[0], tb))
            elif is_method(a, "iter") and is_method(b, "chunks_exact_mut"):
                ta, e.src = self.infer_iter(a)
                tb = prune(self.infer(b.recv))
                unify(self.infer(b.args[0], USIZE), USIZE, e.line)
                e.form, e.dst, e.k = "zipchunksmut", b.recv, b.args[0]
                self.infer_pat(e.pat, Ty("tuple", ta, tb))
            else:
                self.err(e, "iterator")
        else:
            t, e.src = self.infer_iter(it)
            e.form = "list"
            self.infer_pat(e.pat, t)
        self.infer_block(e.body)
        self.scopes.pop()
        self.depth -= 1
        return UNIT

    def infer_iter(self, e):
        """(item type, (kind, node..)) of a shared iteration."""
        if is_method(e, "iter"):
            t = prune(self.infer(e.recv))
            return t.args[0], ("plain", e.recv)
        if is_method(e, "chunks_exact"):
            t = prune(self.infer(e.recv))
            unify(self.infer(e.args[0], USIZE), USIZE, e.line)
            return t, ("chunks", e.recv, e.args[0])
        t = prune(self.infer(e))
        if isinstance(t, Ty) and t.kind == "list":
            return t.args[0], ("plain", e)
        self.err(e, "iterator source")

    # -- calls
    def inf_method(self, e, want):
        n = e.name
        if n == "expect" and is_method(e.recv, "try_into"):
            t = prune(self.infer(e.recv.recv))
            e.form = "tryinto"
            return t
        if n == "get_unchecked":
            t = prune(self.infer(e.recv))
            unify(self.infer(e.args[0], USIZE), USIZE, e.line)
            return t.args[0]
        t = prune(self.infer(e.recv, want if n in ("wrapping_add", "wrapping_sub", "wrapping_mul", "rotate_left", "rotate_right") else None))
        if isinstance(t, TVar) and n in ("wrapping_add", "wrapping_sub", "wrapping_mul", "rotate_left", "rotate_right", "to_be_bytes"):
            pass
        if n in ("wrapping_add", "wrapping_sub", "wrapping_mul"):
            unify(self.infer(e.args[0], t), t, e.line)
            return t
        if n in ("rotate_left", "rotate_right"):
            unify(self.infer(e.args[0], INT("u32")), INT("u32"), e.line)
            return t
        if n in ("to_be_bytes", "to_le_bytes"):
            return LIST(INT("u8"))
        if n in ("to_le", "to_be", "clone"):
            return t
        kind = t.kind if isinstance(t, Ty) else None
        if kind == "str" and n == "to_owned":
            e.form = "string"
            return LIST(INT("u8"))
        if kind == "formatter" and n == "write_str" and e.args[0].kind == "str":
            e.form = "writestr"
            return Ty("fmtresult")
        if kind == "struct" and t.args[0] == "rs" and n == "into":
            e.form = "id"
            return t
        if kind in ("serializer", "deserializer") and n == "is_human_readable":
            e.form = "human"
            return BOOL
        if kind == "serializer" and n in ("collect_str", "serialize_bytes", "serialize_str"):
            u = prune(self.infer(e.args[0]))
            if n != "collect_str":
                unify(u, LIST(INT("u8")), e.line)
            elif u.kind != "param" or not self.serde_param(u):
                self.err(e, "collect_str")
            e.form = n
            return Ty("result", Ty("sererror"), Ty("serok"))
        if kind == "deserializer" and n in ("deserialize_str", "deserialize_bytes"):
            v = prune(self.infer(e.args[0]))
            o = next((o for o in self.tr.mods[v.args[0]].impl_traits.get(v.args[1], [])
                      if o.trait == "Visitor"), None) if v.kind == "struct" else None
            a = e.args[0]
            if o is None or a.kind != "call" or len(a.f.gens[-1]) != 1 or len(o.gens) != 1:
                self.err(e, "visitor")
            e.form, e.visitor = "visit", v
            e.value = prune(self.tr.resolve_ty(a.f.gens[-1][0], self.f))
            return Ty("result", Ty("deerror"), e.value)
        if kind == "result" and n == "map_err":
            a = e.args[0]
            if a.kind == "closure":
                u = self.infer(a.body)
            elif a.kind == "path" and len(a.segs) == 2 and a.segs[1] == "custom" and \
                    dict(self.tr.gens_of(self.f)).get(a.segs[0]) == "Error":
                u = Ty("deerror")
            else:
                self.err(e, "map_err")
            e.form = "maperr"
            return Ty("result", u, t.args[1])
        if kind == "list" and n == "hash" and len(e.args) == 1:
            u = prune(self.infer(e.args[0]))
            if u.kind == "param" and dict(self.tr.gens_of(self.f)).get(u.args[0]) == "Hasher":
                e.form, e.param = "hashslice", u.args[0]
                return UNIT
        if isinstance(t, Ty) and t.kind == "list":
            if n == "len":
                return USIZE
            if n == "is_empty":
                return BOOL
            if n in ("as_ref", "to_vec", "iter"):
                return t
            if n == "as_hex":
                return Ty("ashex")
            if n == "copy_from_slice":
                unify(self.infer(e.args[0], t), t, e.line)
                return UNIT
        if isinstance(t, Ty) and t.kind == "param":
            sig = {"input": ([LIST(INT("u8"))], UNIT), "finalize": ([], LIST(INT("u8"))),
                   "midstate": ([], Ty("assoc", t.args[0], "Midstate")),
                   "n_bytes_hashed": ([], USIZE)}
            if n in sig:
                e.form, e.param = "dict", t.args[0]
                for a, w in zip(e.args, sig[n][0]):
                    unify(self.infer(a, w), w, e.line)
                return sig[n][1]
        if isinstance(t, Ty) and t.kind == "struct":
            g = self.tr.find_fn(t.args[0], t.args[1] + "::" + n)
            if g is not None:
                e.form = "fn"
                return self.inf_fncall(e, g, [e.recv] + e.args, recv_done=True)
        self.err(e, f"method {n} of {t}")

    def inf_fncall(self, e, g, args, recv_done=False):
        e.fn = g
        if len(g.params) != len(args):
            self.err(e, f"arity of {g.name}")
        for i, (a, p) in enumerate(zip(args, g.params)):
            pt = self.tr.resolve_ty(p[2], g)
            if i == 0 and recv_done:
                continue
            unify(self.infer(a, pt), pt, e.line)
        e.allargs = args
        if g.ret is None:
            return UNIT
        return self.tr.resolve_ty(g.ret, g)

    def inf_call(self, e, want):
        f, tr = self.f, self.tr
        p = e.f
        segs = [s for s in p.segs if s not in ("crate", "self", "super")]
        last = segs[-1]
        e.form = None
        # constructors and Result
        if p.qself is None and len(segs) == 1 and last in ("Ok", "Err"):
            w = prune(want) if want is not None else None
            if w is None or w.kind != "result":
                self.err(e, "Result of unknown type")
            i = 1 if last == "Ok" else 0
            unify(self.infer(e.args[0], w.args[i]), w.args[i], e.line)
            e.form = "ctor_" + last
            return w
        if p.qself is None and segs == ["Some"]:
            e.form = "ctor_Some"
            w = prune(want) if want is not None else None
            return Ty("option", self.infer(e.args[0], w.args[0] if w is not None else None))
        if segs[-2:] == ["Box", "new"]:
            e.form = "id"
            return self.infer(e.args[0], want)
        if last == "json_schema" and p.qself is not None and p.qself[0].kind == "path" and \
                p.qself[0].segs[-1] == "String":
            e.form = "stringschema"
            self.infer(e.args[0])
            return Ty("struct", "rs", "SchemaObject", tr.mods["rs"].structs["SchemaObject"])
        if segs[-2:-1] == ["Unexpected"] and last in ("Bytes", "Str"):
            e.form = "unexpected"
            unify(self.infer(e.args[0]), LIST(INT("u8")), e.line)
            return Ty("unexpected")
        if len(segs) == 2 and dict(tr.gens_of(f)).get(segs[0]) == "Error" and \
                last in ("invalid_value", "invalid_type", "invalid_length"):
            e.form = "deerror"
            w = USIZE if last == "invalid_length" else Ty("unexpected")
            unify(self.infer(e.args[0], w), w, e.line)
            self.infer(e.args[1])
            return Ty("deerror")
        if last == "from_str" and segs[:2] == ["Self", "Value"] and len(e.args) == 1:
            e.form, e.which = "serde", "from_str"
            e.base = prune(tr.assoc_ty(tr.self_ty(f), "Value", f, e.line))
            unify(self.infer(e.args[0]), LIST(INT("u8")), e.line)
            return Ty("result", Ty("hexerror"), e.base)
        if segs[-2:-1] == ["SerdeHash"]:
            e.form, e.which = "serde", last
            w = prune(want) if want is not None else None
            if last == "serialize":
                e.base = prune(self.infer(e.args[0]))
                unify(self.infer(e.args[1]), Ty("serializer"), e.line)
                return Ty("result", Ty("sererror"), Ty("serok"))
            if last == "deserialize" and w is not None and w.kind == "result":
                e.base = prune(w.args[1])
                unify(self.infer(e.args[0]), Ty("deserializer"), e.line)
                return Ty("result", Ty("deerror"), e.base)
            if last == "from_slice_delegated" and prune(self.ret).kind == "result":
                # the result type of `map_err` is that of the function it is the value of
                e.base = prune(prune(self.ret).args[1])
                unify(self.infer(e.args[0]), LIST(INT("u8")), e.line)
                return Ty("result", tr.resolve_ty(Node("path", e.line, segs=["FromSliceError"], gens=[[]],
                                                       qself=None, mark=()), f), e.base)
            self.err(e, "SerdeHash::" + last)
        if segs[-2:] == ["Ord", "cmp"]:
            t = prune(self.infer(e.args[0]))
            unify(self.infer(e.args[1], t), t, e.line)
            e.form = "ordcmp"
            if t.kind == "struct":
                e.form, e.fn, e.allargs = "fn", tr.find_fn(t.args[0], t.args[1] + "::Ord::cmp"), e.args
            return Ty("ordering")
        if last == "from_hex" and len(e.args) == 1:
            w = prune(want) if want is not None else None
            if p.qself is not None and p.qself[0].kind == "tarr":
                n = p.qself[0].len
                e.form, e.n = "fromhex", self.const_param(n) or str(tr.const_eval(n, f))
                unify(self.infer(e.args[0]), LIST(INT("u8")), e.line)
                return Ty("result", Ty("hexerror"), LIST(INT("u8")))
            if w is not None and w.kind == "result" and prune(w.args[1]).kind == "struct":
                t = prune(w.args[1])
                g = tr.find_fn(t.args[0], t.args[1] + "::FromHex::from_hex")
                if g is not None:
                    e.form = "fn"
                    return self.inf_fncall(e, g, e.args)
            self.err(e, "from_hex")
        if last == "fmt" and segs[-2:-1] and segs[-2] in ("LowerHex", "UpperHex", "Display", "Debug"):
            t = prune(self.infer(e.args[0]))
            self.infer(e.args[1])
            if t.kind == "ashex" and segs[-2] in ("LowerHex", "UpperHex"):
                e.form, e.case = "fmthex", segs[-2][:5].lower()
                return Ty("fmtresult")
            g = tr.find_fn(t.args[0], t.args[1] + "::" + segs[-2] + "::fmt") if t.kind == "struct" else None
            if g is None:
                self.err(e, "fmt")
            e.form = "fn"
            return self.inf_fncall(e, g, e.args, recv_done=True)
        if p.qself is None and len(segs) == 1 and (last in f.mod.structs or last == "Self"):
            t = tr.self_ty(f) if last == "Self" else tr.resolve_ty(p, f)
            sc = self.struct_scope(t)
            for a, (_, ft) in zip(e.args, t.args[2].fields):
                w = tr.resolve_ty(ft, sc)
                unify(self.infer(a, w), w, e.line)
            e.form = "ctor"
            return t
        # core
        if segs[-2:] == ["ptr", "read_volatile"]:
            e.form = "volread"
            return self.infer(e.args[0])
        if segs[-2:] == ["ptr", "write_volatile"]:
            e.form = "volwrite"
            t = self.infer(e.args[0])
            unify(self.infer(e.args[1], t), t, e.line)
            return UNIT
        if segs[-2:] == ["ptr", "copy_nonoverlapping"]:
            e.form = "copynon"
            src, dst, n = e.args
            self.infer(src)
            d = dst
            while d.kind in ("cast", "ref"):
                d = d.e
            e.dst = d
            self.infer(d)
            unify(self.infer(n, USIZE), USIZE, e.line)
            return UNIT
        if segs[-2:] in (["cmp", "min"], ["cmp", "max"]):
            e.form = segs[-1]
            a = self.infer(e.args[0])
            return unify(self.infer(e.args[1], a), a, e.line)
        if segs[-2:] == ["mem", "size_of"]:
            e.form = "sizeof"
            e.size = INTS[p.gens[-1][0].segs[0]] // 8
            return USIZE
        if len(segs) == 2 and segs[0] in INTS:
            if last == "from":
                e.form = "from"
                self.infer(e.args[0])
                return INT(segs[0])
            if last in ("from_be_bytes", "from_le_bytes"):
                e.form = last
                self.infer(e.args[0])
                return INT(segs[0])
        if len(segs) == 1 and last in SIMD:
            e.form = "simd"
            for a in e.args:
                self.infer(a)
            return M128
        if len(segs) == 1 and last in ("_mm_loadu_si128", "_mm_storeu_si128"):
            e.form = last
            q = e.args[0]
            while q.kind == "cast":
                q = q.e
            ptr = "as_ptr" if last == "_mm_loadu_si128" else "as_mut_ptr"
            if not (is_method(q, "add") and is_method(q.recv, ptr)):
                self.err(e, "pointer expression")
            e.arr, e.off = q.recv.recv, q.args[0]
            e.arrty = prune(self.infer(e.arr))
            unify(self.infer(e.off, USIZE), USIZE, e.line)
            if last == "_mm_loadu_si128":
                return M128
            unify(self.infer(e.args[1]), M128, e.line)
            return UNIT
        # trait functions of a type parameter
        base = None
        if p.qself is not None:
            base = prune(tr.resolve_ty(p.qself[0], f))
        elif len(segs) == 2 and any(g[0] == segs[0] for g in tr.gens_of(f)):
            base = Ty("param", segs[0])
        if base is not None and base.kind == "param":
            bound = dict(tr.gens_of(f))[base.args[0]]
            e.form, e.param = "dictfn", base.args[0]
            if bound == "Tag" and last == "engine":
                e.field = "engine"
                return tr.resolve_ty(Node("path", e.line, segs=["Engine"], gens=[[]], qself=None,
                                          mark=()), f)
            if last in ("default", "new"):
                e.field = last
                return base
            if last == "from_midstate":
                e.field = "fromMidstate"
                w = Ty("assoc", base.args[0], "Midstate")
                unify(self.infer(e.args[0], w), w, e.line)
                unify(self.infer(e.args[1], USIZE), USIZE, e.line)
                return base
            if last == "hash":
                e.field = "hash"
                unify(self.infer(e.args[0], LIST(INT("u8"))), LIST(INT("u8")), e.line)
                return LIST(INT("u8"))
            self.err(e, "trait function " + last)
        if segs == ["Default", "default"]:
            w = prune(want) if want is not None else None
            if w is not None and w.kind == "param":
                e.form, e.param, e.field = "dictfn", w.args[0], "default"
                return w
            if w is not None and w.kind == "struct":
                g = tr.find_fn(w.args[0], w.args[1] + "::default")
                if g is not None:
                    e.form = "fn"
                    return self.inf_fncall(e, g, e.args)
            self.err(e, "Default::default of unknown type")
        # functions of the crate
        mod = f.mod
        if segs[0] in tr.mods and len(segs) > 1 and segs[0] not in f.mod.submods:
            mod, segs = tr.mods[segs[0]], segs[1:]
        if segs[0] == "Self":
            segs = [f.owner.name] + segs[1:]
        keys = ["::".join(segs)]
        if len(segs) == 1 and f.submod is not None:
            keys.insert(0, f.submod + "::" + segs[0])
        for key in keys:
            g = mod.fns.get(key)
            if g is not None:
                e.form = "fn"
                return self.inf_fncall(e, g, e.args)
        if segs[-1] == "new" and len(segs) == 2 and segs[0] in mod.structs:
            # provided method of the trait: `Default::default()`
            g = mod.fns.get(segs[0] + "::default")
            if g is not None and any(o.trait == "HashEngine"
                                     for o in mod.impl_traits.get(segs[0], [])):
                e.form = "fn"
                return self.inf_fncall(e, g, e.args)
        self.err(e, "function " + "::".join(p.segs))

    # ======== emission
    def emit(self, line):
        for x in line.split("\n"):
            self.cur.lines.append(" " * self.cur.ind + x)

    def bind(self, rhs):
        self.temps += 1
        t = f"x_{self.temps}"
        self.emit(f"let {t} ← {rhs}")
        self.effect()
        return t

    def effect(self):
        self.cur.effect = True

    def read(self, v):
        c = self.cur
        while c is not None:
            c.reads.setdefault(v, True)
            c = c.parent

    def set_var(self, v, rhs, eff=False):
        self.emit(f"let {v.lean} {'←' if eff else ':='} {rhs}")
        if eff:
            self.effect()
        self.note_assigned(v)

    def note_assigned(self, v):
        v.init = True
        self.epoch += 1
        self.cur.assigned.setdefault(v, True)

    def child(self):
        self.cur = Ctx(self.cur, self.frame, self.depth + 1)
        return self.cur

    def leave(self):
        c = self.cur
        self.cur = c.parent
        for v in c.assigned:
            if v.depth < c.depth:
                self.cur.assigned.setdefault(v, True)
        return c

    def outer(self, ctxs, depth):
        vs = {}
        for c in ctxs:
            for v in c.assigned:
                if v.depth < depth:
                    vs[v.lean] = v
        return sorted(vs.values(), key=lambda v: v.seq)

    # -- statements
    def block_value(self, b, inline=False):
        """Emits the statements of a block in the current context; returns its value."""
        self.depth += 1
        val = self.stmts(b.stmts)
        if not self.cur.diverged and b.tail is not None:
            val = self.expr(b.tail)
        self.depth -= 1
        return val if val is not None else "()"

    def stmts(self, stmts):
        i = 0
        while i < len(stmts):
            if self.cur.diverged:
                self.err(stmts[i], "unreachable statement")
            j = i
            while j < len(stmts) and self.run_stmt(stmts[j]) and stmts[j].kind == stmts[i].kind:
                j += 1
            if j - i >= RUN:
                self.run_lines(stmts[i:j])
                i = j
            else:
                self.stmt(stmts[i])
                i += 1
        return None

    def run_stmt(self, s):
        return s.kind == "smacro" and len(flat_assigns(s)) > 0 and not contains_run(s) or (
            s.kind == "sexpr" and s.semi and s.e.kind in ("assign", "opassign"))

    def run_lines(self, stmts):
        self.lines_count += 1
        name = f"@NAME@.lines{self.lines_count}"
        ctxs = []
        unset = [v for v in self.never if getattr(v, "never", False)]
        for s in stmts:
            self.child()
            self.depth += 1
            self.stmt(s)
            self.depth -= 1
            ctxs.append((s, self.leave()))
        depth = ctxs[0][1].depth
        vs = self.outer([c for _, c in ctxs], depth)
        inside = {v.lean for v in vs}
        caps = {}
        for _, c in ctxs:
            for v in c.reads:
                if v.depth < depth and v.lean not in inside and v not in c.declared:
                    caps[v.lean] = v
        caps = sorted(caps.values(), key=lambda v: v.seq)
        state = tup([v.lean for v in vs])
        sty = " × ".join(paren(self.tr.lean_ty(v.ty, self.mod)) for v in vs)
        gens = "".join(f" ({n} : {b})" for n, b in self.gens)
        cap = "".join(f" ({v.lean} : {self.tr.lean_ty(v.ty, self.mod)})" for v in caps)
        pure = not any(c.effect for _, c in ctxs)
        if pure and len(vs) == 1:
            sname = sty
            out = []
        else:
            sname = f"@NAME@.State{self.lines_count}"
            out = [f"/-- The variables {', '.join(v.lean for v in vs)} of `{self.f.name}`. -/",
                   f"abbrev {sname} := {sty}", ""]
        args = "".join(" " + n for n, _ in self.gens) + "".join(" " + v.lean for v in caps)
        rty = sname if pure else "Res " + sname
        ln = f"@NAME@.line{self.lines_count}_"
        for k, (s, c) in enumerate(ctxs):
            if c.has_ret or c.diverged:
                self.err(s, "control flow in a run of statements")
            text = s.text if s.kind == "smacro" else f"line {s.line}"
            out.append(f"/-- {text} -/")
            out.append(f"def {ln}{k} (cfg : Cfg){gens}{cap} : {sname} → {rty} :=")
            out.append(f"  fun {state} =>" + ("" if pure else " do"))
            out += indent(c.lines, 4)
            out.append(" " * (4 + c.ind) + ("" if pure else "pure ") + state)
            out.append("")
        out.append(f"/-- The {len(stmts)} statements. -/")
        out.append(f"def {name} (cfg : Cfg){gens}{cap} : List ({sname} → {rty}) := [")
        out.append(",\n".join(f"  {ln}{k} cfg{args}" for k in range(len(ctxs))) + "]")
        self.aux.append("\n".join(out))
        for v in vs:
            if v in unset:
                self.emit(f"let {v.lean} : {self.tr.lean_ty(v.ty, self.mod)} := Rs.uninit")
        for v in vs + caps:
            self.read(v)
        if pure:
            self.emit(f"let {state} := Rs.runPure ({name} cfg{args}) {state}")
        else:
            self.emit(f"let {state} ← Rs.runLines ({name} cfg{args}) {state}")
            self.effect()
        for v in vs:
            self.note_assigned(v)

    never = ()

    def stmt(self, s):
        if s.kind == "let":
            self.let(s)
        elif s.kind == "smacro":
            self.stmts(s.stmts)
        elif s.kind == "sexpr":
            self.expr_stmt(s.e)
        else:
            self.err(s, "statement")

    def let(self, s):
        if s.init is None:
            self.never = list(self.never) + [q.var for q in pat_idents(s.pat)]
            for q in pat_idents(s.pat):
                q.var.never = True
            return
        if s.init.kind == "try":
            # the rest of the function body runs under `Rs.tryOk`
            if self.cur is not self.frame.root or self.frame.kind != "fn" or self.outs or \
                    s.pat.kind != "pident":
                self.err(s, "`?`")
            rhs = self.expr(s.init.e)
            self.cur.declared[s.pat.var] = True
            self.emit(f"Rs.tryOk {paren(rhs)} fun {s.pat.var.lean} => do")
            self.effect()
            self.cur.ind += 2
            return
        if s.pat.kind == "pident":
            v = s.pat.var
            rhs = self.expr(s.init)
            self.emit_let(v, rhs)
        else:
            if s.init.kind == "tuple":
                vals = [self.expr(x) for x in s.init.elems]
                rhs = tup(vals)
            else:
                rhs = self.expr(s.init)
            names = tup([q.var.lean if q.kind == "pident" else "_" for q in s.pat.elems])
            for q in pat_idents(s.pat):
                self.cur.declared[q.var] = True
            self.emit(f"let {names} := {rhs}")

    def emit_let(self, v, rhs):
        self.cur.declared[v] = True
        t = prune(v.ty)
        ann = ""
        if isinstance(t, Ty) and t.kind in ("int", "list", "bool"):
            ann = " : " + self.tr.lean_ty(t, self.mod)
        # a fresh temporary is renamed in place
        last = self.cur.lines[-1] if self.cur.lines else ""
        pre = " " * self.cur.ind + f"let {rhs} ← "
        if rhs.startswith("x_") and last.startswith(pre):
            self.cur.lines[-1] = " " * self.cur.ind + f"let {v.lean} ← " + last[len(pre):]
        elif rhs != v.lean:
            self.emit(f"let {v.lean}{ann} := {rhs}")

    def expr_stmt(self, e):
        k = e.kind
        if k == "if":
            self.emit_if(e, False)
        elif k == "block":
            self.block_value(e)
        elif k == "while":
            self.emit_while(e)
        elif k == "for":
            self.emit_for(e)
        elif k == "return":
            self.emit_return(e)
        elif k == "break":
            self.emit_break(e)
        else:
            self.expr(e)

    def emit_return(self, e):
        if self.frame.kind not in ("fn", "for"):
            self.err(e, "return inside a loop")
        val = self.expr(e.e) if e.e is not None else "()"
        res = self.result_of(val)
        if self.frame.kind == "fn" and self.cur is self.frame.root and self.cur.ind == 0:
            self.emit(f"pure {paren(res)}")
        else:
            self.emit(f"pure (Rs.Flow.ret {paren(res)})")
        self.frame.returns = True
        self.effect()
        self.cur.diverged = True
        self.cur.has_ret = True

    def emit_break(self, e):
        if self.frame.kind not in ("loop", "for"):
            self.err(e, "break outside a loop")
        self.emit(f"pure (Rs.Flow.ret @LOOP{id(self.frame)}@)")
        self.effect()
        self.frame.used = True
        self.cur.diverged = True
        self.cur.has_ret = True

    def finish(self, c, result, flow):
        """Lines of a branch with its last line."""
        lines = list(c.lines)
        if not c.diverged:
            last = f"pure (Rs.Flow.next {paren(result)})" if flow else f"pure {paren(result)}"
            lines.append(" " * c.ind + last)
        return lines

    def branch(self, b):
        c = self.child()
        if b is None:
            c.value = "()"
        elif b.kind == "if":
            self.depth += 1
            c.value = self.emit_if(b, prune(b.ty).kind not in ("unit", "never"))
            self.depth -= 1
        elif b.kind == "block":
            c.value = self.block_value(b)
        else:
            self.depth += 1
            c.value = self.expr(b)
            self.depth -= 1
        return self.leave()

    def emit_if(self, e, want):
        cond = self.expr(e.cond)
        th, el = self.branch(e.then), self.branch(e.els)
        return self.join(e, cond, th, el, want)

    def join(self, e, cond, th, el, want):
        vs = self.outer([th, el], th.depth)
        for v in vs:
            if getattr(v, "never", False):
                self.err(e, "variable first assigned in a branch")
            self.read(v)
        flow = th.has_ret or el.has_ret

        def result(c):
            if c.diverged:
                return ""
            return tup(([c.value] if want else []) + [v.lean for v in vs])

        if flow:
            self.cur.has_ret = True
            self.temps += 1
            r = f"x_{self.temps}"
            a, b = self.finish(th, result(th), True), self.finish(el, result(el), True)
            self.emit(f"let {r} ←")
            self.emit(f"  if {cond} then do")
            for x in indent(a, 4):
                self.emit(x)
            self.emit("  else do")
            for x in indent(b, 4):
                self.emit(x)
            self.effect()
            val = None
            names = [v.lean for v in vs]
            if want:
                self.temps += 1
                val = f"x_{self.temps}"
                names = [val] + names
            self.leave_or_go_on(r, tup(names) if names else "_")
            for v in vs:
                self.note_assigned(v)
            if th.diverged and el.diverged:
                self.err(e, "both branches leave")
            return val
        if th.diverged and el.diverged:
            self.err(e, "both branches leave")
        names = [v.lean for v in vs]
        val = None
        if want:
            self.temps += 1
            val = f"x_{self.temps}"
            names = [val] + names
        if not th.effect and not el.effect:
            a = "; ".join([x.strip() for x in th.lines] + [result(th)])
            b = "; ".join([x.strip() for x in el.lines] + [result(el)])
            if names:
                self.emit(f"let {tup(names)} := if {cond} then ({a}) else ({b})")
        else:
            a, b = self.finish(th, result(th), False), self.finish(el, result(el), False)
            self.emit(f"let {tup(names) if names else '_'} ←")
            self.emit(f"  if {cond} then do")
            for x in indent(a, 4):
                self.emit(x)
            self.emit("  else do")
            for x in indent(b, 4):
                self.emit(x)
            self.effect()
        for v in vs:
            self.note_assigned(v)
        return val

    def leave_or_go_on(self, r, state):
        self.cur.has_ret = True
        self.emit(f"match {r} with")
        top = (self.frame.kind == "fn" and self.cur is self.frame.root)
        self.emit(f"| Rs.Flow.ret r => pure {'r' if top else '(Rs.Flow.ret r)'}")
        self.emit(f"| Rs.Flow.next {state} => do")
        self.cur.ind += 2

    def emit_while(self, e):
        old = self.frame
        self.frame = Frame("loop")
        cc = self.child()
        cond = self.expr(e.cond)
        self.leave()
        if cc.assigned:
            self.err(e, "assignment in a loop condition")
        bc = self.child()
        self.block_value(e.body)
        self.leave()
        fr, self.frame = self.frame, old
        vs = self.outer([bc], bc.depth)
        for v in vs:
            self.read(v)
        state = tup([v.lean for v in vs])
        key = f"@LOOP{id(fr)}@"
        body = [x.replace(key, paren(state)) for x in self.finish(bc, state, fr.used)]
        fn = "Rs.whileBreak" if fr.used else "Rs.whileR"
        self.emit(f"let {state} ← {fn} cfg.usizeMod")
        clines = cc.lines + ["pure " + paren(cond)]
        if len(clines) == 1:
            self.emit(f"  (fun {state} => {clines[0]})")
        else:
            self.emit(f"  (fun {state} => do")
            for x in indent(clines, 4):
                self.emit(x)
            self.cur.lines[-1] += ")"
        self.emit(f"  (fun {state} => do")
        for x in indent(body, 4):
            self.emit(x)
        self.cur.lines[-1] += f") {paren(state)}"
        self.effect()
        for v in vs:
            self.note_assigned(v)

    def emit_for(self, e):
        if e.form in ("range", "enumerate", "list"):
            if e.form == "list":
                src, item = self.iter_source(e.src), e.pat.var.lean
            elif e.form == "range":
                lo, hi = self.expr(e.it.lo), self.expr(e.it.hi)
                src = f"Rs.range {paren(lo)} {paren(hi)}"
                item = e.pat.var.lean
            else:
                src = f"Rs.enumerate {paren(self.expr(e.src))}"
                item = tup([q.var.lean for q in e.pat.elems])
            c, fr = self.loop_body(e, "for")
            vs = self.outer([c], c.depth)
            for v in vs:
                self.read(v)
            state = tup([v.lean for v in vs])
            key = f"@LOOP{id(fr)}@"
            body = [x.replace(key, paren(state)) for x in self.finish(c, state, fr.used or fr.returns)]
            if fr.used and fr.returns:
                self.err(e, "break and return in a loop")
            if fr.returns:
                self.temps += 1
                r = f"x_{self.temps}"
                self.emit(f"let {r} ← Rs.eachFlow ({src}) (init := {state}) fun {state} {item} => do")
            elif fr.used:
                self.emit(f"let {state} ← Rs.eachBreak ({src}) (init := {state}) fun {state} {item} => do")
            else:
                self.emit(f"let {state} ← ({src}).foldlM (init := {state}) fun {state} {item} => do")
            for x in indent(body, 2):
                self.emit(x)
            self.effect()
            if fr.returns:
                self.frame.returns = True
                self.leave_or_go_on(r, state)
            for v in vs:
                self.note_assigned(v)
            return
        dst = self.expr(e.dst)
        src = self.iter_source(e.src)
        a, b = [q.var.lean for q in e.pat.elems]
        c, _ = self.loop_body(e, "noloop")
        target = e.pat.elems[0].var if e.form == "zipmut" else e.pat.elems[1].var
        vs = self.outer([c], c.depth)
        if [v for v in vs if v is not target]:
            self.err(e, "loop assigns other variables")
        body = self.finish(c, target.lean, False)
        if e.form == "zipmut":
            rhs = f"Rs.zipMut {paren(dst)} {paren(src)} fun {a} {b} => do"
        else:
            rhs = f"Rs.zipChunksMut {paren(self.expr(e.k))} {paren(src)} {paren(dst)} fun {a} {b} => do"
        place = e.dst
        if place.kind != "path" or place.res != "var":
            self.err(e, "loop over a place that is not a variable")
        self.emit(f"let {place.var.lean} ← {rhs}")
        for x in indent(body, 2):
            self.emit(x)
        self.effect()
        self.note_assigned(place.var)

    def loop_body(self, e, kind):
        self.depth += 1
        old, self.frame = self.frame, Frame(kind)
        c = self.child()
        self.block_value(e.body)
        self.leave()
        fr, self.frame = self.frame, old
        self.depth -= 1
        return c, fr

    def iter_source(self, s):
        if s[0] == "plain":
            return self.expr(s[1])
        return f"chunksExact {paren(self.expr(s[2]))} {paren(self.expr(s[1]))}"

    # -- places
    def assign_place(self, p, rhs):
        """Stores the value `rhs` (a pure Lean expression) in a place."""
        if p.kind == "deref" or p.kind == "ref":
            return self.assign_place(p.e, rhs)
        if p.kind == "path" and p.res == "var":
            v = p.var
            last = self.cur.lines[-1] if self.cur.lines else ""
            pre = " " * self.cur.ind + f"let {rhs} ← "
            if rhs.startswith("x_") and last.startswith(pre):
                self.cur.lines[-1] = " " * self.cur.ind + f"let {v.lean} ← " + last[len(pre):]
            else:
                ann = ""
                if getattr(v, "never", False):
                    ann = " : " + self.tr.lean_ty(v.ty, self.mod)
                self.emit(f"let {v.lean}{ann} := {rhs}")
            v.never = False
            self.note_assigned(v)
            return
        if p.kind == "field":
            base = self.expr(p.e)
            if hasattr(p, "tupidx"):
                self.err(p, "assignment to a tuple field")
            return self.assign_place(p.e, f"{{ {base} with {p.name} := {rhs} }}")
        if p.kind == "index" and p.i.kind != "range" and not hasattr(p, "via_field"):
            base, i = self.expr(p.e), self.expr(p.i)
            t = self.bind(f"indexSet {paren(base)} {paren(i)} {paren(rhs)}")
            return self.assign_place(p.e, t)
        self.err(p, "place " + p.kind)

    # -- expressions
    def operands(self, nodes):
        out = []
        for n in nodes:
            before = self.epoch
            s = self.expr(n)
            if self.epoch != before and any(not x.startswith("x_") and not x[0].isdigit()
                                            for x in out):
                self.err(n, "operand with side effects on variables")
            out.append(s)
        return out

    def expr(self, e):
        return getattr(self, "ex_" + e.kind)(e)

    def kind_of(self, t, node):
        t = prune(t)
        if isinstance(t, TVar):
            self.err(node, "integer of unknown type")
        return t

    def ex_int(self, e):
        t = self.kind_of(e.ty, e)
        if t.args[0] == "usize":
            return e.text.replace("_", "")
        return f"{e.text.replace('_', '')}#{INTS[t.args[0]]}"

    def ex_bool(self, e):
        return "true" if e.value else "false"

    def ex_path(self, e):
        if e.res == "var":
            if getattr(e.var, "never", False):
                self.err(e, f"{e.var.lean} is read before it is assigned")
            self.read(e.var)
            return e.var.lean
        if e.res == "const":
            key, item, g = e.const
            mod = g.mod.name if hasattr(g, "mod") else self.mod
            return self.tr.lean_name(mod, key, self.mod)
        if e.res == "unit":
            return "()"
        if e.res == "constparam":
            return e.segs[0]
        return f"{e.param}.blockSize"

    def ex_field(self, e):
        s = paren(self.expr(e.e))
        if hasattr(e, "tupidx"):
            i, n = e.tupidx
            return s + ".2" * i + (".1" if i < n - 1 else "")
        return f"{s}.{e.name}"

    def ex_index(self, e):
        if hasattr(e, "dict"):
            return self.bind(f"{e.dict}.index {paren(self.expr(e.e))} ⟨⟩")
        if e.i.kind == "range":
            base = paren(self.expr(e.e) + (".f0" if hasattr(e, "via_field") else ""))
            lo = self.expr(e.i.lo) if e.i.lo is not None else None
            hi = self.expr(e.i.hi) if e.i.hi is not None else None
            if lo is None and hi is None:
                return base
            if lo is None:
                return self.bind(f"sliceTo {base} {paren(hi)}")
            if hi is None:
                return self.bind(f"sliceFrom {base} {paren(lo)}")
            return self.bind(f"Rs.sliceRange {base} {paren(lo)} {paren(hi)}")
        base, i = self.operands([e.e, e.i])
        if hasattr(e, "via_field"):
            base += ".f0"
        if hasattr(e, "by"):
            return self.bind(f"Rs.{e.by}.get {paren(i)} {paren(base)}")
        fn = "Chf.index" if self.f.name == "index" else "index"
        return self.bind(f"{fn} {paren(base)} {paren(i)}")

    def ex_unary(self, e):
        t = self.kind_of(e.ty, e)
        s = paren(self.expr(e.e))
        return f"!{s}" if t.kind == "bool" else f"~~~{s}"

    def ex_deref(self, e):
        if hasattr(e, "newtype"):
            fields = prune(e.ty).args[2].fields
            fs = [f"{fields[0][0]} := {self.expr(e.newtype)}"] + [f"{n} := ()" for n, _ in fields[1:]]
            return f"({{ {', '.join(fs)} }} : {self.tr.lean_ty(e.ty, self.mod)})"
        return self.expr(e.e)

    def ex_ref(self, e):
        return self.expr(e.e)

    def ex_binary(self, e):
        op = e.op
        if op in ("&&", "||"):
            a = self.expr(e.a)
            c = self.child()
            b = self.expr(e.b)
            c = self.leave()
            if c.assigned:
                self.err(e, "assignment in a condition")
            if not c.effect and not c.lines:
                return f"{paren(a)} {op} {paren(b)}"
            lines = c.lines + ["pure " + paren(b)]
            self.temps += 1
            t = f"x_{self.temps}"
            short = "pure false" if op == "&&" else "pure true"
            self.emit(f"let {t} ←")
            self.emit(f"  if {a if op == '&&' else '!' + paren(a)} then do")
            for x in indent(lines, 4):
                self.emit(x)
            self.emit(f"  else {short}")
            self.effect()
            return t
        if op in ("<<", ">>"):
            if self.tr.is_const(e.b, self.f):
                n = self.tr.const_eval(e.b, self.f)
                w = INTS[self.kind_of(e.a.ty, e).args[0]]
                if n >= w:
                    self.err(e, "shift too large")
                return f"{paren(self.expr(e.a))} {op * 1}{op[0]} {n}"
            a, b = self.operands([e.a, e.b])
            if self.kind_of(e.b.ty, e).args[0] != "usize":
                b = f"{paren(b)}.toNat"
            return self.bind(f"Rs.{'shl' if op == '<<' else 'shr'}U cfg {paren(a)} {paren(b)}")
        t = self.kind_of(e.a.ty, e)
        a, b = self.operands([e.a, e.b])
        return self.arith(e, op, t, a, b, e.b, e.a)

    def arith(self, e, op, t, a, b, bnode, anode=None):
        a, b = paren(a), paren(b)
        if op in ("==", "!="):
            return f"{a} {op} {b}"
        if op in ("<", ">", "<=", ">="):
            o = {"<": "<", ">": ">", "<=": "≤", ">=": "≥"}[op]
            return f"decide ({a} {o} {b})"
        if op in ("&", "|", "^"):
            if t.kind == "bool":
                self.err(e, "operator on bool")
            return f"{a} {op * 3} {b}"
        usize = t.args[0] == "usize"
        if op in ("/", "%"):
            if self.tr.is_const(bnode, self.f):
                if self.tr.const_eval(bnode, self.f) == 0 or t.args[0][0] != "u":
                    self.err(e, "division")
                return f"{a} {op} {b}"
            if not usize:
                self.err(e, "division")
            return self.bind(f"Rs.{'div' if op == '/' else 'rem'}Usize {a} {b}")
        name = {"+": "add", "-": "sub", "*": "mul"}[op]
        if usize and anode is not None and anode.kind == "int" and bnode.kind == "int":
            v = {"+": anode.value + bnode.value, "-": anode.value - bnode.value,
                 "*": anode.value * bnode.value}[op]
            if 0 <= v < 2 ** 16:
                return f"{a} {op} {b}"
        if usize:
            return self.bind(f"{name}Usize cfg {a} {b}")
        return self.bind(f"Rs.{name}U cfg {a} {b}")

    def ex_cast(self, e):
        to = self.kind_of(e.ty, e)
        if e.e.kind == "int" and e.e.suffix is None:
            return self.expr(e.e)
        fr = self.kind_of(e.e.ty, e)
        s = paren(self.expr(e.e))
        if to.kind != "int" or fr.kind != "int":
            self.err(e, "cast")
        if fr.args[0] == "usize":
            if to.args[0] == "usize":
                return s
            return f"BitVec.ofNat {INTS[to.args[0]]} {s}"
        if to.args[0] == "usize":
            if INTS[fr.args[0]] > 16:
                return f"({s}.toNat % cfg.usizeMod)"
            return f"{s}.toNat"
        a, b = INTS[fr.args[0]], INTS[to.args[0]]
        if a == b:
            return s
        return f"BitVec.setWidth {b} {s}"

    def ex_assign(self, e):
        rhs = self.expr(e.e)
        self.assign_place(e.place, rhs)
        return "()"

    def ex_opassign(self, e):
        rhs = self.expr(e.e)
        before = self.epoch
        old = self.expr(e.place)
        if self.epoch != before:
            self.err(e, "place with side effects")
        t = self.kind_of(e.place.ty, e)
        if e.op in ("<<", ">>"):
            self.err(e, "shift assignment")
        self.assign_place(e.place, self.arith(e, e.op, t, old, rhs, e.e))
        return "()"

    def ex_tuple(self, e):
        return tup(self.operands(e.elems)) if e.elems else "()"

    def ex_array(self, e):
        return "[" + ", ".join(self.operands(e.elems)) + "]"

    def ex_repeat(self, e):
        n = self.const_param(e.n) or self.tr.const_eval(e.n, self.f)
        return f"List.replicate {n} {paren(self.expr(e.e))}"

    def ex_struct(self, e):
        vals = self.operands([x for _, x in e.fields])
        fs = ", ".join(f"{n} := {v}" for (n, _), v in zip(e.fields, vals))
        ty = self.tr.lean_ty(e.ty, self.mod)
        if e.base is not None:
            b = self.expr(e.base)
            return f"({{ {b} with {fs} }} : {ty})"
        return f"({{ {fs} }} : {ty})"

    def ex_if(self, e):
        want = prune(e.ty).kind not in ("unit", "never")
        v = self.emit_if(e, want)
        return v if v is not None else "()"

    def ex_block(self, e):
        return self.block_value(e)

    def ex_while(self, e):
        self.emit_while(e)
        return "()"

    def ex_for(self, e):
        self.emit_for(e)
        return "()"

    def ex_return(self, e):
        self.emit_return(e)
        return "()"

    def ex_break(self, e):
        self.emit_break(e)
        return "()"

    def ex_match(self, e):
        subj = paren(self.expr(e.e))
        self.temps += 1
        r = f"x_{self.temps}"
        ctxs = []
        for p, x in e.arms:
            c = self.branch(x)
            if c.assigned or c.has_ret:
                self.err(e, "match arm with statements")
            ctxs.append((p, x, c))
        if e.arms[-1][0].kind != "pwild":
            self.err(e, "match without a last wildcard arm")
        self.emit(f"let {r} ←")
        for k, (p, x, c) in enumerate(ctxs):
            if p.kind == "pwild":
                kw = "  else do" if k else "  do"
            else:
                lo, hi = self.ex_int(p.lo), self.ex_int(p.hi)
                kw = f"  {'else ' if k else ''}if decide ({lo} ≤ {subj}) && decide ({subj} ≤ {hi}) then do"
            self.emit(kw)
            for ln in indent(self.finish(c, c.value, False), 4):
                self.emit(ln)
        self.effect()
        return r

    def ex_builtin(self, e):
        n = e.name
        if n == "is_x86_feature_detected":
            return "cfg.shaNi"
        if n == "fmt_hex_exact":
            f, xs = self.operands([e.args[0], e.args[2]])
            return self.bind(f"Hex.fmtHexExact {paren(f)} {e.n} {paren(xs)} .{e.case}")
        if n == "write" and e.form == "fn":
            return self.call_fn(e)
        if n == "write":
            out = [f'ascii "{e.parts[0]}"'] if e.parts[0] else []
            for a, t in zip(e.args[2:], e.parts[1:]):
                x = paren(self.expr(a))
                out.append(f"ascii (toString {x if prune(a.ty).args[0] == 'usize' else x + '.toNat'})")
                out += [f'ascii "{t}"'] if t else []
            return " ++ ".join(out) if out else "[]"
        if n == "unreachable":
            self.emit("Except.error Fault.unreachable")
            self.effect()
            self.cur.diverged = True
            return "()"
        if n == "assert":
            self.emit(f"assertR {paren(self.expr(e.args[0]))}")
            self.effect()
            return "()"
        c = self.child()
        if n == "debug_assert":
            b = self.expr(e.args[0])
        elif n == "debug_assert_eq":
            x, y = self.operands(e.args)
            b = f"{paren(x)} == {paren(y)}"
        else:
            self.err(e, n)
        c = self.leave()
        if c.assigned:
            self.err(e, "assignment in an assertion")
        if not c.lines:
            self.emit(f"debugAssert cfg {paren(b)}")
        else:
            self.emit("let _ ←")
            self.emit("  if cfg.debugAssertions then do")
            for x in indent(c.lines, 4):
                self.emit(x)
            self.emit(f"    debugAssert cfg {paren(b)}")
            self.emit("  else pure ()")
        self.effect()
        return "()"

    def ex_utf8ok(self, e):
        return f"utf8Valid {paren(self.expr(e.e))}"

    def ex_flags(self, e):
        return "{ alternate := true }"

    # -- calls
    def ex_method(self, e):
        n = e.name
        form = getattr(e, "form", None)
        if form == "tryinto":
            self.err(e, "try_into outside from_be_bytes or from_le_bytes")
        if form == "fn":
            return self.call_fn(e)
        if form == "dict":
            return self.call_dict(e)
        if form in ("string", "writestr"):
            return "ascii " + (e.recv if form == "string" else e.args[0]).text
        if form == "id":
            return self.expr(e.recv)
        if form == "human":
            return paren(self.expr(e.recv)) + ".human"
        if form == "collect_str":
            x = paren(self.expr(e.args[0]))
            d = self.serde_dict(prune(e.args[0].ty), e)
            return f"Rs.Serialized.str {self.bind(d + '.fmt ' + x + ' { alternate := false }')}"
        if form in ("serialize_bytes", "serialize_str"):
            return f"Rs.Serialized.{form[10:]} {paren(self.expr(e.args[0]))}"
        if form == "visit":
            return self.visit(e)
        if form == "maperr":
            a, f = e.args[0], "Rs.DeError.custom"
            r = paren(self.expr(e.recv))
            if a.kind == "closure":
                before = len(self.cur.lines)
                b = a.body
                while b.kind == "block" and not b.stmts and b.tail is not None:
                    b = b.tail
                f = f"(fun _ => {self.expr(b)})"
                if len(self.cur.lines) != before:
                    self.err(e, "closure")
            return f"Except.mapError {f} {r}"
        if form == "hashslice":
            x, h = self.operands([e.recv, e.args[0]])
            self.assign_place(e.args[0], f"{e.param}.hashSlice {paren(x)} {paren(h)}")
            return "()"
        if n == "get_unchecked":
            a, i = self.operands([e.recv, e.args[0]])
            return self.bind(f"Rs.getUnchecked {paren(a)} {paren(i)}")
        if n == "copy_from_slice":
            return self.copy_from_slice(e)
        if n in ("clone", "as_ref", "to_vec", "iter", "as_hex"):
            return self.expr(e.recv)
        ops = self.operands([e.recv] + e.args)
        a = paren(ops[0])
        if n == "len":
            return f"{a}.length"
        if n == "is_empty":
            return f"{a}.isEmpty"
        t = self.kind_of(e.recv.ty, e)
        if n in ("wrapping_add", "wrapping_sub", "wrapping_mul"):
            op = {"wrapping_add": "+", "wrapping_sub": "-", "wrapping_mul": "*"}[n]
            if t.args[0] == "usize":
                if op == "-":
                    a += " + cfg.usizeMod"
                return f"({a} {op} {paren(ops[1])}) % cfg.usizeMod"
            return f"{a} {op} {paren(ops[1])}"
        if n in ("rotate_left", "rotate_right"):
            arg = e.args[0]
            k = str(arg.value) if arg.kind == "int" else f"{paren(ops[1])}.toNat"
            return f"{a}.{'rotateLeft' if n == 'rotate_left' else 'rotateRight'} {k}"
        if n == "to_be_bytes":
            return f"Rs.toBeBytes {a}"
        if n == "to_le_bytes":
            return f"Rs.toLeBytes {a}"
        if n == "to_le":
            return f"Rs.toLe cfg {a}"
        self.err(e, "method " + n)

    def visit(self, e):
        """`d.deserialize_str(V::<T>(..))`: the visitor is the record of its methods."""
        v = e.visitor
        d, x = self.operands([e.recv, e.args[0]])
        dic, fs = self.serde_dict(e.value, e), []
        for n, fld in (("expecting", "expecting"), ("visit_str", "visitStr"), ("visit_bytes", "visitBytes")):
            g = self.tr.find_fn(v.args[0], v.args[1] + "::Visitor::" + n)
            if g is None:
                fs.append(f"{fld} := none")
                continue
            c = self.tr.compiled(g.mod.name, g.key)
            call = " ".join([self.tr.lean_name(g.mod.name, g.key, self.mod), "cfg", dic, paren(x)])
            if n == "expecting":
                fs.append(f"{fld} := {call} {{ alternate := false }}")
            else:
                fs.append(f"{fld} := some (fun v => {'pure (' if c.pure else ''}{call} v{')' if c.pure else ''})")
        known = [k for k in self.tr.mods[v.args[0]].fns if k.startswith(v.args[1] + "::Visitor::")]
        if len(known) != sum(1 for x in fs if not x.endswith("none")):
            self.err(e, "visitor method")
        return self.bind(f"Rs.Deserializer.run {paren(d)} .{e.name[12:]} {{ {', '.join(fs)} }}")

    def copy_from_slice(self, e):
        p = e.recv
        if p.kind == "index" and p.i.kind == "range":
            base, lo, hi = self.operands([p.e, p.i.lo, p.i.hi])
            self.emit(f"Rs.checkRange {paren(base)} {paren(lo)} {paren(hi)}")
            self.effect()
            src = self.expr(e.args[0])
            t = self.bind(f"copyIntoRange {paren(base)} {paren(lo)} {paren(hi)} {paren(src)}")
            self.assign_place(p.e, t)
        else:
            base, src = self.operands([p, e.args[0]])
            t = self.bind(f"Rs.copyFromSlice {paren(base)} {paren(src)}")
            self.assign_place(p, t)
        return "()"

    def call_dict(self, e):
        fld = {"input": "input", "finalize": "finalize", "midstate": "midstate",
               "n_bytes_hashed": "nBytesHashed"}[e.name]
        ops = [paren(x) for x in self.operands([e.recv] + e.args)]
        call = f"{e.param}.{fld} " + " ".join(ops)
        if fld == "nBytesHashed":
            return call
        t = self.bind(call)
        if fld == "input":
            self.assign_place(e.recv, t)
            return "()"
        return t

    def call_fn(self, e):
        g = e.fn
        c = self.tr.compiled(g.mod.name, g.key)
        ops = [paren(x) for x in self.operands(e.allargs)]
        mine = [n for n, _ in self.gens]
        for n in c.gens:
            if n not in mine:
                self.err(e, f"type argument {n}")
        name = self.tr.lean_name(g.mod.name, g.key, self.mod)
        call = " ".join([name, "cfg"] + c.gens + ops)
        muts = [a for a, p in zip(e.allargs, g.params) if p[3] == "mut"]
        unit = prune(c.ret).kind == "unit"
        if not muts:
            if c.pure:
                return call
            if unit:
                self.emit(call)
                self.effect()
                return "()"
            return self.bind(call)
        # results: the value, then the new values of the `&mut` arguments
        n = len(muts) + (0 if unit else 1)
        names = []
        for _ in range(n):
            self.temps += 1
            names.append(f"x_{self.temps}")
        self.emit(f"let {tup(names)} {':=' if c.pure else '←'} {call}")
        if not c.pure:
            self.effect()
        outs = names if unit else names[1:]
        for a, o in zip(muts, outs):
            self.assign_place(a, o)
        return "()" if unit else names[0]

    def ex_call(self, e):
        f = e.form
        if f == "fn":
            return self.call_fn(e)
        if f == "ctor":
            vals = self.operands(e.args)
            fs = ", ".join(f"{n} := {v}" for (n, _), v in zip(prune(e.ty).args[2].fields, vals))
            return f"({{ {fs} }} : {self.tr.lean_ty(e.ty, self.mod)})"
        if f == "id":
            return self.expr(e.args[0])
        if f == "stringschema":
            return f"Rs.stringSchema {paren(self.expr(e.args[0]))}"
        if f == "unexpected":
            return f"Rs.Unexpected.{e.f.segs[-1].lower()} {paren(self.expr(e.args[0]))}"
        if f == "deerror":
            n = {"value": "Value", "type": "Type", "length": "Length"}[e.f.segs[-1][8:]]
            x = paren(self.expr(e.args[0]))
            return f"Rs.DeError.invalid{n} {x} {self.expected(e.args[1])}"
        if f == "serde":
            d = self.serde_dict(e.base, e)
            ops = [paren(x) for x in self.operands(e.args)]
            if e.which in ("from_str", "from_slice_delegated"):
                return self.bind(" ".join([f"{d}.{e.which}"] + ops))
            g = self.tr.find_fn("serde_macros", "SerdeHash::" + e.which)
            c = self.tr.compiled("serde_macros", g.key)
            call = " ".join([self.tr.lean_name("serde_macros", g.key, self.mod), "cfg", d] + ops)
            return call if c.pure else self.bind(call)
        if f == "fromhex":
            return self.bind(f"Rs.fromHex {e.n} {paren(self.expr(e.args[0]))}")
        if f == "fmthex":
            xs, g = self.operands(e.args)
            return f"Hex.fmtByteSlice {paren(g)} {paren(xs)} .{e.case}"
        if f == "ctor_Some":
            return f"some {paren(self.expr(e.args[0]))}"
        if f == "ordcmp":
            a, b = self.operands(e.args)
            return f"Rs.cmpSlice {paren(a)} {paren(b)}"
        if f == "ctor_Ok":
            return f"Except.ok {paren(self.expr(e.args[0]))}"
        if f == "ctor_Err":
            return f"Except.error {paren(self.expr(e.args[0]))}"
        if f == "volread":
            return self.expr(e.args[0])
        if f == "volwrite":
            place, val = e.args
            self.assign_place(place, self.expr(val))
            return "()"
        if f == "copynon":
            src, dst, n = e.args
            if not is_method(src, "get_unchecked"):
                self.err(e, "source of copy_nonoverlapping")
            a, i, d, k = self.operands([src.recv, src.args[0], e.dst, n])
            t = self.bind(f"Rs.copyNonoverlapping cfg {paren(a)} {paren(i)} {paren(d)} {paren(k)}")
            self.assign_place(e.dst, t)
            return "()"
        if f in ("min", "max"):
            a, b = self.operands(e.args)
            return f"{f} {paren(a)} {paren(b)}"
        if f == "sizeof":
            return str(e.size)
        if f == "from":
            w = INTS[self.kind_of(e.ty, e).args[0]]
            t = self.kind_of(e.args[0].ty, e)
            if INTS[t.args[0]] >= w:
                self.err(e, "from")
            return f"BitVec.setWidth {w} {paren(self.expr(e.args[0]))}"
        if f in ("from_be_bytes", "from_le_bytes"):
            w = INTS[self.kind_of(e.ty, e).args[0]]
            a = e.args[0]
            if a.kind == "method" and getattr(a, "form", None) == "tryinto":
                s = self.bind(f"Rs.tryInto {w // 8} {paren(self.expr(a.recv.recv))}")
            else:
                s = paren(self.expr(a))
            return f"Rs.from{'Be' if 'be' in f else 'Le'}Bytes {w} {s}"
        if f == "simd":
            ops = []
            for a in self.operands_simd(e):
                ops.append(paren(a))
            return "Sha256.Simd." + e.f.segs[-1][1:] + " " + " ".join(ops)
        if f == "_mm_loadu_si128":
            arr, off = self.operands([e.arr, e.off])
            kind = "32" if e.arrty.args[0].args[0] == "u32" else "8"
            return self.bind(f"Rs.loadu{kind} {paren(arr)} {paren(off)}")
        if f == "_mm_storeu_si128":
            arr, off, val = self.operands([e.arr, e.off, e.args[1]])
            if e.arrty.args[0].args[0] != "u32":
                self.err(e, "store")
            t = self.bind(f"Rs.storeu32 {paren(arr)} {paren(off)} {paren(val)}")
            self.assign_place(e.arr, t)
            return "()"
        if f == "dictfn":
            ops = [paren(x) for x in self.operands(e.args)]
            return self.bind(" ".join([f"{e.param}.{e.field}"] + ops))
        self.err(e, "call")

    def operands_simd(self, e):
        out = []
        for a in e.args:
            if a.kind == "int" and a.suffix is None:
                out.append(a.text)
            else:
                out.append(self.expr(a))
        return out


def is_method(e, name):
    return e.kind == "method" and e.name == name


def pat_idents(p):
    if p.kind == "pident":
        return [p]
    return [q for x in p.elems for q in pat_idents(x)]


def flat_assigns(s):
    if s.kind == "smacro":
        return [a for x in s.stmts for a in flat_assigns(x)]
    if s.kind == "sexpr":
        if s.e.kind in ("assign", "opassign"):
            return [s]
        if s.e.kind == "block":
            return [a for x in s.e.stmts for a in flat_assigns(x)] + (
                [s] if s.e.tail is not None and s.e.tail.kind in ("assign", "opassign", "call") else [])
        if s.e.kind == "call":
            return [s]
    return []


def contains_run(s):
    """Whether the expansion is itself long enough to hold a run."""
    return len(flat_assigns(s)) >= 3 * RUN


# ---------------------------------------------------------------- output

def config(small):
    return {'feature="std"': True, 'feature="alloc"': True, 'target_arch="x86_64"': True,
            'feature="serde"': True, 'feature="schemars"': True, 'feature="small-hash"': small, "hashes_fuzz": False, "test": False}


def load(src, small):
    # cfg keys are written `feature="x"`; eval_cfg builds the same strings
    cfg = config(small)
    exp = Expander({})
    exp.cfg = cfg
    for name in ("internal_macros.rs", "serde_macros.rs"):
        collect_macros(lex(open(os.path.join(src, name)).read(), name), exp, cfg)
    mods = {"rs": parse_module("rs", "rs", EXTERN, {}, cfg)}
    for m in ORDER:
        p = os.path.join(src, m + ".rs")
        mods[m] = parse_module(m, m + ".rs", open(p).read(), exp.macros, cfg)
    return mods


SKIP_STRUCTS = {("hmac", "MidState")}


def translate(src):
    trs = {}
    for small in (False, True):
        tr = Translator(load(src, small))
        for m in ORDER:
            for key, f in list(tr.mods[m].fns.items()):
                try:
                    tr.compiled(m, f.key)
                except Unsupported:
                    pass
        trs[small] = tr
    return {m: module_text(trs, m) for m in ORDER}


def render_fn(c, name):
    lines = []
    for a in c.aux:
        lines.append(a.replace("@NAME@", name))
        lines.append("")
    lines.append("@DOC@")
    lines.append(c.head.replace("@NAME@", name))
    lines += indent([y for x in c.body for y in x.replace("@NAME@", name).split("\n")], 2)
    return "\n".join(lines)


def wrap_doc(f):
    where = f"{f.file} {f.line}-{f.end}" if f.end != f.line else f"{f.file} {f.line}"
    return f"/-- `{f.key}`, {where}. -/"


def module_text(trs, m):
    fast, small = trs[False], trs[True]
    mod = fast.mods[m]
    out = [f"/- Generated from /repo/src/{m}.rs by tools/rust2lean.py; do not edit. -/",
           "import Verif.Source.Prelude" if m == "lib" else "import Verif.Source.Lib"]
    if m == "sha256":
        out.append("import Verif.Model.Sha256Simd")
    if any(o.trait == "SerdeHash" for os_ in mod.impl_traits.values() for o in os_):
        out.append("import Verif.Source.SerdeMacros")
    for d in DEPS.get(m, []):
        out.append(f"import Verif.Source.{LEANMOD[d]}")
    out += ["", f"namespace Chf.Source.{LEANMOD[m]}", "open Chf",
            "set_option linter.unusedVariables false", ""]
    # structs
    for name, d in mod.structs.items():
        if (m, name) in SKIP_STRUCTS:
            continue
        ps = fast.struct_params(d)
        sc = type("S", (), {})()
        sc.mod, sc.gens, sc.owner, sc.line = mod, d.gens, None, 0
        try:
            fs = [(n, fast.lean_ty(fast.resolve_ty(t, sc), m)) for n, t in d.fields]
        except Unsupported:
            continue
        par = "".join(f" ({p} : Chf.HashEngine)" for p in ps)
        out.append(f"/-- `struct {name}`. -/")
        out.append(f"structure {name}{par} where")
        out += [f"  {n} : {t}" for n, t in fs]
        out.append("")
    if m == "sha256t":
        out += ["/-- `trait Tag`: user code. -/", "structure Tag where", "  engine : Res Engine", ""]
    if m == "serde_macros":
        out += ["/-- `trait SerdeHash` with its supertraits, as far as the functions here use them. -/",
                "structure SerdeHash where", "  State : Type",
                "  from_slice_delegated : List Byte → Res (Except Lib.FromSliceError State)",
                "  /-- `FromStr` -/", "  from_str : List Byte → Res (Except Hex.Error State)",
                "  /-- `Display` -/", "  fmt : State → Hex.Flags → Res (List Byte)",
                "  /-- `Index<RangeFull>` -/", "  index : State → Rs.RangeFull → Res (List Byte)", ""]
    # constants
    for key, c in mod.consts.items():
        if c.val is None or key.startswith("HashEngine"):
            continue
        try:
            g = next(iter(mod.fns.values()))
            if c.owner is not None:
                g = next(h for h in mod.fns.values() if h.owner is c.owner)
            v = fast.const_eval(c.val, g)
        except (Unsupported, StopIteration):
            continue
        out.append(f"/-- `const {key}`. -/")
        out.append(f"def {key.replace('::', '.')} : Nat := {v}")
        out.append("")
    # functions
    keys = [k for k in fast.order[m]]
    for k in small.order[m]:
        if k not in keys:
            after = [x for x in small.order[m][:small.order[m].index(k)] if x in keys]
            pos = keys.index(after[-1]) + 1 if after else 0
            keys.insert(pos, k)
    late = [k for k in keys if "::Serialize::" in k or "::Deserialize::" in k]
    for k in [k for k in keys if k not in late] + late:
        if late and k == late[0]:
            for name in mod.structs:
                out += serde_dictionary(fast, mod, name)
        a, b = fast.done.get((m, k)), small.done.get((m, k))
        a = a if isinstance(a, Compiled) else None
        b = b if isinstance(b, Compiled) else None
        c = a or b
        name = c.name
        doc = wrap_doc(c.f)
        if a is None or b is None or render_fn(a, name) == render_fn(b, name):
            out.append(render_fn(c, name).replace("@DOC@", doc))
        else:
            assert a.pure == b.pure
            for v, suf, txt in ((a, "_fast", "without"), (b, "_small", "with")):
                out.append(render_fn(v, name + suf).replace(
                    "@DOC@", doc.replace(". -/", f", {txt} feature `small-hash`. -/")))
                out.append("")
            args = "".join(" " + g for g in c.gens) + c.call_args
            head = c.head.replace("@NAME@", name)
            head = head[:-len(" do")] if head.endswith(" do") else head
            out.append(doc)
            out.append(head)
            out.append(f"  if cfg.smallHash then {name}_small cfg{args} else {name}_fast cfg{args}")
        out.append("")
    for name, d in mod.structs.items():
        out += derived(fast, mod, name, d)
    # dictionary of the trait
    out += dictionary(fast, m)
    # what is missing
    miss = [(k, f, e) for k, f, e in fast.failed[m] if f is not None]
    miss += [(k, None, f"{e}") for k, ln, e in mod.skipped]
    if miss:
        out.append("/-! Not translated:")
        out.append("")
        seen = set()
        for k, f, e in miss:
            if k in seen:
                continue
            seen.add(k)
            out.append(f"* `{k}`: {e}")
        out.append("-/")
        out.append("")
    out.append(f"end Chf.Source.{LEANMOD[m]}")
    return "\n".join(out) + "\n"


def derived(tr, mod, name, d):
    """The functions that `#[derive(..)]` writes: fields are compared in order."""
    sc = type("S", (), {})()
    sc.mod, sc.gens, sc.owner, sc.line = mod, d.gens, None, 0
    try:
        tys = [prune(tr.resolve_ty(t, sc)) for _, t in d.fields]
    except Unsupported:
        return []
    names, out = [n for n, _ in d.fields], []
    par = "".join(f" ({n} : {BOUNDS[b]})" for n, b in d.gens if b in BOUNDS)
    cmps = [f"Rs.cmpSlice self.{n} other.{n}" for n in names]
    cmp = cmps[0] if len(cmps) == 1 else " |>.then ".join(f"({c})" for c in cmps)
    for trait, line, file in d.derives:
        if trait == "PartialEq" and all(t.kind in ("int", "list") for t in tys):
            body = " && ".join(f"self.{n} == other.{n}" for n in names)
            sig, fn = f"(self : {name}) (other : {name}) : Bool", "eq"
        elif trait in ("Ord", "PartialOrd") and all(t.kind == "list" for t in tys):
            ty, fn = ("Ordering", "cmp") if trait == "Ord" else ("Option Ordering", "partial_cmp")
            sig, body = f"(self : {name}) (other : {name}) : {ty}", cmp if trait == "Ord" else f"some ({cmp})"
        elif trait == "Default" and all(t.kind == "tarr" for _, t in d.fields):
            g = next(iter(mod.fns.values()))
            vals = [f"{n} := List.replicate {tr.const_eval(t.len, g)} 0" for n, t in d.fields]
            sig, fn, body = f": {name}", "default", f"{{ {', '.join(vals)} }}"
        elif trait == "Hash" and all(t.kind == "list" and prune(t.args[0]).args[0] == "u8" for t in tys):
            sig, fn, body = f"(H : Rs.Hasher) (self : {name}) (h : H.State) : H.State", "hash", "h"
            for n in names:
                body = f"H.hashSlice self.{n} {paren(body)}"
        else:
            continue
        out += [f"/-- `#[derive({trait})]` of `{name}`, {file} {line}. -/",
                f"def {name}.{trait}.{fn} (cfg : Cfg){par} {sig} :=", f"  {body}", ""]
    return out


def serde_dictionary(tr, mod, name):
    """The functions of a type with the trait `SerdeHash`."""
    impl = next((o for o in mod.impl_traits.get(name, []) if o.trait == "SerdeHash"), None)
    if impl is None:
        return []
    gens = [(n, bound_name(b, mod.name)) for n, b in impl.gens if b in BOUNDS]
    par, g = "".join(f" ({n} : {b})" for n, b in gens), "".join(" " + n for n, _ in gens)
    ix = name + ("::Index::index" if (mod.name, name + "::Index::index") in tr.done else "::IndexRangeFull::index")

    def field(key, args):
        c = tr.done.get((mod.name, key))
        if not isinstance(c, Compiled):
            raise Unsupported(f"{mod.name}: no {key}")
        call = f"{key.replace('::', '.')} cfg{g}{args}"
        return f"pure ({call})" if c.pure else call
    return [f"/-- `impl SerdeHash for {name}`. -/",
            f"def {name}.serdeHash (cfg : Cfg){par} : SerdeMacros.SerdeHash where",
            f"  State := {name}",
            f"  from_slice_delegated sl := {field(name + '::SerdeHash::from_slice_delegated', ' sl')}",
            f"  from_str s := {field(name + '::FromStr::from_str', ' s')}",
            f"  fmt self f := {field(name + '::Display::fmt', ' self f')}",
            f"  index self i := {field(ix, ' self (.rangeFull i)' if ix.endswith('::Index::index') else ' self i')}",
            ""]


def dictionary(tr, m):
    mod = tr.mods[m]
    impl = next((o for o in mod.impl_traits.get("Engine", []) if o.trait == "HashEngine"), None)
    if impl is None:
        return []
    gens = [(g[0], g[1]) for g in impl.gens]
    par = "".join(f" ({n} : {'Chf.HashEngine' if b == 'HashEngine' else b})" for n, b in gens)
    g = "".join(" " + n for n, _ in gens)
    ty = "Engine" + "".join(" " + n for n, b in gens if b == "HashEngine")

    def fn(name):
        k = f"Engine::HashEngine::{name}"
        if (m, k) not in tr.done:
            k = f"Engine::{name}"
        return tr.done.get((m, k)), k.replace("::", ".")

    def field(name, args):
        c, k = fn(name)
        if not isinstance(c, Compiled):
            raise Unsupported(f"{m}: no {name}")
        call = f"{k} cfg{g}{args}"
        if name == "n_bytes_hashed":
            return call if c.pure else call + " -- may panic"
        return f"pure ({call})" if c.pure else call

    f0 = fn("midstate")[0]
    mt = tr.lean_ty(f0.ret, m)
    new = fn("new")[0]
    new_is_trait = isinstance(new, Compiled) and new.f.owner.trait == "HashEngine"
    block = next((c for k, c in mod.consts.items() if k == "Engine::BLOCK_SIZE"), None)
    try:
        bs = tr.const_eval(block.val, fn("midstate")[0].f)
        bs = "Engine.BLOCK_SIZE"
    except Unsupported:
        bs = f"{gens[0][0]}.blockSize"
    return [f"/-- `impl HashEngine for Engine`, {m}.rs {impl.line}. -/",
            f"def engine (cfg : Cfg){par} : Chf.HashEngine where",
            f"  State := {ty}",
            f"  Midstate := {mt}",
            f"  blockSize := {bs}",
            f"  default := {field('default', '')}",
            f"  new := {field('new' if new_is_trait else 'default', '')}",
            f"  input self data := {field('input', ' self data')}",
            f"  nBytesHashed self := {field('n_bytes_hashed', ' self')}",
            f"  finalize self := {field('finalize', ' self')}",
            f"  midstate self := {field('midstate', ' self')}",
            f"  fromMidstate midstate length := {field('from_midstate', ' midstate length')}",
            ""]


def main():
    ap = argparse.ArgumentParser()
    ap.add_argument("--src", default="/repo/src")
    here = os.path.dirname(os.path.dirname(os.path.abspath(__file__)))
    ap.add_argument("--out", default=os.path.join(here, "lean", "Verif", "Source"))
    ap.add_argument("--check", action="store_true")
    a = ap.parse_args()
    texts = {LEANMOD[m]: t for m, t in translate(a.src).items()}
    files = {os.path.join(a.out, m + ".lean"): t for m, t in texts.items()}
    verif = os.path.dirname(os.path.abspath(a.out))
    observed = seen.generate(texts)
    files.update({os.path.join(verif, "Seen", m + ".lean"): t for m, t in observed.items()})
    files.update({os.path.join(verif, "Proofs/Seen", m + ".lean"): t
                  for m, t in seen.proofs(observed, texts).items()})
    files.update({os.path.join(verif, "Left", m + ".lean"): t for m, t in left.generate(texts).items()})
    bad = 0
    for p, t in files.items():
        old = open(p).read() if os.path.exists(p) else None
        if a.check:
            if old != t:
                print("differs:", p)
                bad = 1
        elif old != t:
            open(p, "w").write(t)
            print("wrote", p)
    sys.exit(bad)


if __name__ == "__main__":
    main()
