"""Lexer, `macro_rules!` expander and parser for the subset of Rust that /repo/src uses.

Anything outside the subset raises `Unsupported`; nothing is skipped silently inside a function body.
"""

import copy
import re


class Unsupported(Exception):
    pass


class Tok:
    __slots__ = ("kind", "text", "line", "mark", "node", "file")

    def __init__(self, kind, text, line, mark=(), node=None, file=None):
        self.kind, self.text, self.line, self.mark, self.node = kind, text, line, mark, node
        self.file = file

    def __repr__(self):
        return self.text


PUNCT = ["<<=", ">>=", "..=", "...", "::", "->", "=>", "..", "&&", "||", "==", "!=", "<=", ">=",
         "<<", ">>", "+=", "-=", "*=", "/=", "%=", "^=", "|=", "&="]
OPEN = {"(": ")", "[": "]", "{": "}"}
INT = re.compile(r"(0x[0-9a-fA-F_]+|0b[01_]+|[0-9][0-9_]*)(u8|u16|u32|u64|u128|usize|i32|i64)?")
IDENT = re.compile(r"[A-Za-z_][A-Za-z0-9_]*")


def lex(src, file=None):
    toks, i, line, n = [], 0, 1, len(src)
    while i < n:
        ch = src[i]
        if ch == "\n":
            line += 1
            i += 1
        elif ch.isspace():
            i += 1
        elif src.startswith("//", i):
            j = src.find("\n", i)
            i = n if j < 0 else j
        elif src.startswith("/*", i):
            j = src.index("*/", i)
            line += src.count("\n", i, j)
            i = j + 2
        elif ch == '"' or src.startswith('b"', i):
            j = i + (2 if ch == "b" else 1)
            while src[j] != '"':
                j += 2 if src[j] == "\\" else 1
            toks.append(Tok("str", src[i:j + 1], line))
            line += src.count("\n", i, j)
            i = j + 1
        elif ch == "'":
            m = re.match(r"'(\\.|[^\\'])'", src[i:])
            if m:
                toks.append(Tok("char", m.group(0), line))
                i += len(m.group(0))
            else:
                m = re.match(r"'[A-Za-z_]+", src[i:])
                toks.append(Tok("life", m.group(0), line))
                i += len(m.group(0))
        elif ch.isdigit():
            m = INT.match(src, i)
            toks.append(Tok("int", m.group(0), line))
            i = m.end()
        elif IDENT.match(src, i):
            m = IDENT.match(src, i)
            toks.append(Tok("id", m.group(0), line))
            i = m.end()
        else:
            for p in PUNCT:
                if src.startswith(p, i):
                    toks.append(Tok("p", p, line))
                    i += len(p)
                    break
            else:
                toks.append(Tok("p", ch, line))
                i += 1
    for t in toks:
        t.file = file
    return toks


def close_of(toks, i):
    """Index of the bracket closing the one at `i`."""
    depth = 0
    for j in range(i, len(toks)):
        t = toks[j]
        if t.kind == "p":
            if t.text in OPEN:
                depth += 1
            elif t.text in OPEN.values():
                depth -= 1
                if depth == 0:
                    return j
    raise Unsupported("unbalanced brackets")


class Node:
    """An AST node; `kind` and the attributes given."""

    def __init__(self, kind, line, **kw):
        self.kind, self.line = kind, line
        self.__dict__.update(kw)

    def __repr__(self):
        return f"<{self.kind}@{self.line}>"


# ---------------------------------------------------------------- macro_rules

class Macro:
    def __init__(self, name, toks):
        """`toks`: the contents of the macro's outer brackets."""
        self.name, self.arms = name, []
        i = 0
        while i < len(toks):
            j = close_of(toks, i)
            pat = parse_pattern(toks[i + 1:j])
            assert toks[j + 1].text == "=>", toks[j + 1]
            k = close_of(toks, j + 2)
            self.arms.append((pat, toks[j + 3:k]))
            i = k + 1
            if i < len(toks) and toks[i].text == ";":
                i += 1


def parse_pattern(toks):
    out, i = [], 0
    while i < len(toks):
        t = toks[i]
        if t.text == "$" and toks[i + 1].text == "(":
            j = close_of(toks, i + 1)
            sub = parse_pattern(toks[i + 2:j])
            sep = None
            if toks[j + 1].text not in "*+?":
                sep = toks[j + 1].text
                j += 1
            out.append(("rep", sub, sep))
            i = j + 2
        elif t.text == "$":
            out.append(("frag", toks[i + 1].text, toks[i + 3].text))
            i += 4
        else:
            out.append(("tok", t.text))
            i += 1
    return out


class NoMatch(Exception):
    pass


class Expander:
    def __init__(self, macros):
        self.macros = macros      # name -> Macro
        self.next_mark = 0

    def match(self, pat, toks, i, binds):
        for p in pat:
            if p[0] == "tok":
                if i >= len(toks) or toks[i].text != p[1]:
                    raise NoMatch
                i += 1
            elif p[0] == "frag":
                _, name, kind = p
                if i >= len(toks):
                    raise NoMatch
                if kind in ("ident", "literal", "tt"):
                    binds[name] = [toks[i]]
                    i += 1
                elif kind == "expr":
                    ps = Parser(toks, self, i)
                    try:
                        node = ps.expr()
                    except Unsupported:
                        raise NoMatch
                    binds[name] = [Tok("node", "<expr>", toks[i].line, (), node)]
                    i = ps.i
                else:
                    raise Unsupported("fragment " + kind)
            else:
                _, sub, sep = p
                reps = []
                while i < len(toks):
                    b = {}
                    try:
                        k = i
                        if reps and sep is not None:
                            if toks[k].text != sep:
                                break
                            k += 1
                        k = self.match(sub, toks, k, b)
                    except NoMatch:
                        break
                    reps.append(b)
                    i = k
                for name in frag_names(sub):
                    binds[name] = ("rep", [b[name] for b in reps])
        return i

    def transcribe(self, body, binds, mark, line):
        out, i = [], 0
        while i < len(body):
            t = body[i]
            if t.text == "$" and body[i + 1].text == "(":
                j = close_of(body, i + 1)
                sub = body[i + 2:j]
                sep = None
                if body[j + 1].text not in "*+?":
                    sep = body[j + 1]
                    j += 1
                names = [body[k + 1].text for k in range(i, j)
                         if body[k].text == "$" and body[k + 1].text in binds
                         and binds[body[k + 1].text][0] == "rep"]
                count = len(binds[names[0]][1])
                assert all(len(binds[m][1]) == count for m in names)
                for r in range(count):
                    b = dict(binds)
                    for m in names:
                        b[m] = binds[m][1][r]
                    if r and sep is not None:
                        out.append(sep)
                    out += self.transcribe(sub, b, mark, line)
                i = j + 2
            elif t.text == "$" and body[i + 1].text == "crate":
                out.append(Tok("id", "crate", t.line, mark))
                i += 2
            elif t.text == "$":
                out += binds[body[i + 1].text]
                i += 2
            else:
                out.append(Tok(t.kind, t.text, t.line, t.mark + mark, t.node, t.file))
                i += 1
        return out

    def expand(self, name, toks, line):
        m = self.macros.get(name)
        if m is None:
            raise Unsupported(f"macro {name}! at line {line}")
        for pat, body in m.arms:
            binds = {}
            try:
                i = self.match(pat, toks, 0, binds)
            except NoMatch:
                continue
            if i != len(toks):
                continue
            self.next_mark += 1
            return self.transcribe(body, binds, (self.next_mark,), line)
        raise Unsupported(f"no arm of {name}! matches at line {line}")


def frag_names(pat):
    out = []
    for p in pat:
        if p[0] == "frag":
            out.append(p[1])
        elif p[0] == "rep":
            out += frag_names(p[1])
    return out


# ---------------------------------------------------------------- parser

BINOPS = [["||"], ["&&"], ["==", "!=", "<", ">", "<=", ">="], ["|"], ["^"], ["&"], ["<<", ">>"],
          ["+", "-"], ["*", "/", "%"]]
ASSIGN = {"+=", "-=", "*=", "/=", "%=", "^=", "|=", "&=", "<<=", ">>="}
BUILTIN = {"assert", "debug_assert", "debug_assert_eq", "assert_eq", "unreachable",
           "is_x86_feature_detected", "write", "fmt_hex_exact"}


class Parser:
    def __init__(self, toks, exp, i=0, cfg=None):
        self.toks, self.exp, self.i = toks, exp, i
        self.cfg = cfg if cfg is not None else getattr(exp, "cfg", None)

    # -- token helpers
    def peek(self, k=0):
        j = self.i + k
        return self.toks[j] if j < len(self.toks) else Tok("eof", "", -1)

    def at(self, text, k=0):
        t = self.peek(k)
        return t.text == text and t.kind in ("p", "id")

    def eat(self, text):
        if self.at(text):
            self.i += 1
            return True
        return False

    def need(self, text):
        if not self.eat(text):
            t = self.peek()
            raise Unsupported(f"line {t.line}: expected {text!r}, found {t.text!r}")

    def ident(self):
        t = self.peek()
        if t.kind != "id":
            raise Unsupported(f"line {t.line}: expected identifier, found {t.text!r}")
        self.i += 1
        return t

    def attrs(self):
        """Skips attributes; returns whether every `cfg` among them holds."""
        keep, self.derives = True, []
        while self.at("#"):
            self.i += 1
            self.eat("!")
            j = close_of(self.toks, self.i)
            if self.toks[self.i + 1].text == "derive":
                self.derives += [(t.text, t.line, t.file) for t in self.toks[self.i + 3:j - 1] if t.kind == "id"]
            if self.toks[self.i + 1].text == "cfg":
                keep = keep and eval_cfg(self.toks[self.i + 3:j - 1], self.cfg)
            elif self.toks[self.i + 1].text in ("test", "bench"):
                keep = False
            self.i = j + 1
        return keep

    # -- types
    def ty(self):
        t = self.peek()
        if t.kind == "node":
            raise Unsupported("type fragment")
        if self.eat("&") or self.eat("&&"):
            if self.peek().kind == "life":
                self.i += 1
            mut = self.eat("mut")
            return Node("tref", t.line, mut=mut, inner=self.ty())
        if self.eat("*"):
            if not self.eat("const"):
                self.need("mut")
            return Node("tptr", t.line, inner=self.ty())
        if self.eat("["):
            el = self.ty()
            if self.eat(";"):
                n = self.expr()
                self.need("]")
                return Node("tarr", t.line, elem=el, len=n)
            self.need("]")
            return Node("tslice", t.line, elem=el)
        if self.eat("("):
            els = []
            while not self.eat(")"):
                els.append(self.ty())
                self.eat(",")
            return Node("ttuple", t.line, elems=els)
        if self.eat("_"):
            return Node("tinfer", t.line)
        return self.path(types=True)

    def generic_args(self):
        args = []
        while not self.at(">"):
            if self.at(">>"):
                tk = self.toks[self.i]
                self.toks = (self.toks[:self.i] + [Tok("p", ">", tk.line), Tok("p", ">", tk.line)]
                             + self.toks[self.i + 1:])
                continue
            if self.peek().kind == "life":
                self.i += 1
            else:
                a = self.ty() if self.peek().kind != "int" else self.primary(True)
                if self.eat("="):
                    a = self.ty()
                args.append(a)
            self.eat(",")
        self.need(">")
        return args

    def path(self, types=False):
        """A path, as a type (`types`) or as an expression."""
        t = self.peek()
        segs, gens, qself = [], [], None
        if self.eat("<"):
            qt = self.ty()
            tr = None
            if self.eat("as"):
                tr = self.path(types=True)
            self.need(">")
            qself = (qt, tr)
            self.need("::")
        else:
            self.eat("::")
        mark = self.peek().mark
        while True:
            seg = self.ident()
            segs.append(seg.text)
            gens.append([])
            if types and self.at("<"):
                self.i += 1
                gens[-1] = self.generic_args()
            if self.at("::"):
                self.i += 1
                if self.at("<"):
                    self.i += 1
                    gens[-1] = self.generic_args()
                    if not self.eat("::"):
                        break
                continue
            break
        return Node("path", t.line, segs=segs, gens=gens, qself=qself, mark=mark)

    # -- patterns
    def pattern(self):
        t = self.peek()
        if self.eat("&"):
            return self.pattern()
        if self.eat("("):
            els = []
            while not self.eat(")"):
                els.append(self.pattern())
                self.eat(",")
            return Node("ptuple", t.line, elems=els)
        if self.at("_") and self.peek().kind == "id":
            self.i += 1
            return Node("pwild", t.line)
        if t.kind == "int":
            lo = self.primary(True)
            if self.eat("..="):
                hi = self.primary(True)
                return Node("prange", t.line, lo=lo, hi=hi)
            return Node("prange", t.line, lo=lo, hi=lo)
        mut = self.eat("mut")
        name = self.ident()
        return Node("pident", t.line, name=name.text, mark=name.mark, mut=mut)

    # -- statements
    def block(self):
        t = self.peek()
        self.need("{")
        stmts = []
        while not self.at("}"):
            self.stmt(stmts)
        self.need("}")
        return finish_block(stmts, t.line)

    def stmts_to_end(self):
        stmts = []
        while self.peek().kind != "eof":
            self.stmt(stmts)
        return stmts

    def stmt(self, out):
        if self.eat(";"):
            return
        keep = self.attrs()
        got = []
        self.stmt1(got)
        if keep:
            out += got

    def stmt1(self, out):
        t = self.peek()
        if self.at("let"):
            self.i += 1
            pat = self.pattern()
            ty = self.ty() if self.eat(":") else None
            init = self.expr() if self.eat("=") else None
            self.need(";")
            out.append(Node("let", t.line, pat=pat, ty=ty, init=init))
            return
        if self.at("use"):
            while not self.eat(";"):
                self.i += 1
            return
        if self.at("{"):
            out.append(Node("sexpr", t.line, e=self.block(), semi=self.eat(";")))
            return
        name = self.macro_name()
        if name is not None and name not in BUILTIN:
            toks, line = self.macro_args()
            semi = self.eat(";")
            sub = Parser(self.exp.expand(name, toks, line), self.exp)
            inner = sub.stmts_to_end()
            text = name + "!(" + render(toks) + ")"
            out.append(Node("smacro", line, name=name, stmts=inner, semi=semi, text=text))
            return
        e = self.expr(stmt=True)
        semi = self.eat(";")
        if not semi and not self.at("}") and self.peek().kind != "eof" and e.kind not in (
                "if", "while", "for", "match", "block"):
            p = self.peek()
            raise Unsupported(f"line {p.line}: unexpected {p.text!r} after statement")
        out.append(Node("sexpr", t.line, e=e, semi=semi))

    def macro_name(self):
        """Name of the macro invoked at the current position, if it is a macro invocation."""
        j = self.i
        if self.peek().kind != "id":
            return None
        while (j + 2 < len(self.toks) and self.toks[j].kind == "id" and self.toks[j + 1].text == "::"):
            j += 2
        if (j + 2 < len(self.toks) and self.toks[j].kind == "id" and self.toks[j + 1].text == "!"
                and self.toks[j + 1].kind == "p" and self.toks[j + 2].text in OPEN):
            return self.toks[j].text
        return None

    def macro_args(self):
        line = self.peek().line
        while not self.at("!"):
            self.i += 1
        self.i += 1
        j = close_of(self.toks, self.i)
        toks = self.toks[self.i + 1:j]
        self.i = j + 1
        return toks, line

    # -- expressions
    def expr(self, no_struct=False, stmt=False):
        t = self.peek()
        if stmt and (self.at("if") or self.at("while") or self.at("for") or self.at("match")
                     or self.at("unsafe")):
            e = self.primary(False)
            if not (self.at(".") or self.at("as")) or e.kind == "if":
                return e
            e = self.postfix(e, False)
            return e
        if self.at("return"):
            self.i += 1
            v = None
            if not (self.at(";") or self.at("}")):
                v = self.expr()
            return Node("return", t.line, e=v)
        if self.at("break"):
            self.i += 1
            return Node("break", t.line)
        lhs = self.range_expr(no_struct)
        if self.at("="):
            self.i += 1
            return Node("assign", t.line, place=lhs, e=self.expr(no_struct))
        if self.peek().kind == "p" and self.peek().text in ASSIGN:
            op = self.peek().text[:-1]
            self.i += 1
            return Node("opassign", t.line, op=op, place=lhs, e=self.expr(no_struct))
        return lhs

    def range_expr(self, no_struct):
        t = self.peek()
        if self.eat(".."):
            if self.at("]") or self.at(")"):
                return Node("range", t.line, lo=None, hi=None)
            return Node("range", t.line, lo=None, hi=self.binary(0, no_struct))
        lo = self.binary(0, no_struct)
        if self.eat(".."):
            if self.at("]") or self.at(")") or self.at("{"):
                return Node("range", t.line, lo=lo, hi=None)
            return Node("range", t.line, lo=lo, hi=self.binary(0, no_struct))
        return lo

    def binary(self, level, no_struct):
        if level == len(BINOPS):
            return self.cast(no_struct)
        lhs = self.binary(level + 1, no_struct)
        while self.peek().kind == "p" and self.peek().text in BINOPS[level]:
            op = self.peek().text
            line = self.peek().line
            self.i += 1
            rhs = self.binary(level + 1, no_struct)
            lhs = Node("binary", line, op=op, a=lhs, b=rhs)
        return lhs

    def cast(self, no_struct):
        e = self.unary(no_struct)
        while self.at("as"):
            line = self.peek().line
            self.i += 1
            e = Node("cast", line, e=e, to=self.ty())
        return e

    def unary(self, no_struct):
        t = self.peek()
        if self.eat("!"):
            return Node("unary", t.line, op="!", e=self.unary(no_struct))
        if self.eat("*"):
            return Node("deref", t.line, e=self.unary(no_struct))
        if self.eat("&"):
            mut = self.eat("mut")
            return Node("ref", t.line, mut=mut, e=self.unary(no_struct))
        return self.postfix(self.primary(no_struct), no_struct)

    def postfix(self, e, no_struct):
        while True:
            t = self.peek()
            if self.at("."):
                self.i += 1
                n = self.peek()
                if n.kind == "int":
                    self.i += 1
                    e = Node("field", t.line, e=e, name="f" + n.text)
                    continue
                name = self.ident().text
                gens = []
                if self.at("::"):
                    self.i += 1
                    self.need("<")
                    gens = self.generic_args()
                if self.at("("):
                    e = Node("method", t.line, recv=e, name=name, gens=gens, args=self.call_args())
                else:
                    e = Node("field", t.line, e=e, name=name)
            elif self.at("(") and e.kind == "path":
                e = Node("call", t.line, f=e, args=self.call_args())
            elif self.at("["):
                self.i += 1
                ix = self.expr()
                self.need("]")
                e = Node("index", t.line, e=e, i=ix)
            elif self.at("?"):
                self.i += 1
                e = Node("try", t.line, e=e)
            else:
                return e

    def call_args(self):
        self.need("(")
        args = []
        while not self.eat(")"):
            args.append(self.expr())
            if not self.at(")"):
                self.need(",")
        return args

    def if_let(self):
        """`if let Ok(x) = str::from_utf8(v) { .. } else { .. }`: in the first branch `x` is `v`."""
        t = self.peek()
        self.i += 2
        self.need("Ok")
        self.need("(")
        pat = self.pattern()
        self.need(")")
        self.need("=")
        e = self.expr(no_struct=True)
        if e.kind != "call" or e.f.segs[-2:] != ["str", "from_utf8"] or e.args[0].kind != "path":
            raise Unsupported(f"line {t.line}: if let")
        th = self.block()
        th.stmts.insert(0, Node("let", t.line, pat=pat, ty=None, init=e.args[0]))
        self.need("else")
        return Node("if", t.line, cond=Node("utf8ok", t.line, e=copy.copy(e.args[0])), then=th,
                    els=self.block())

    def primary(self, no_struct):
        t = self.peek()
        if t.kind == "node":
            self.i += 1
            return t.node
        if t.kind == "int":
            self.i += 1
            m = INT.fullmatch(t.text)
            return Node("int", t.line, value=int(m.group(1).replace("_", ""), 0),
                        suffix=m.group(2), text=m.group(1))
        if t.kind == "str":
            self.i += 1
            return Node("str", t.line, text=t.text)
        if self.at("("):
            self.i += 1
            els, comma = [], False
            while not self.eat(")"):
                els.append(self.expr())
                comma = self.eat(",")
            if len(els) == 1 and not comma:
                return els[0]
            return Node("tuple", t.line, elems=els)
        if self.at("["):
            self.i += 1
            els = []
            while not self.eat("]"):
                els.append(self.expr())
                if self.eat(";"):
                    n = self.expr()
                    self.need("]")
                    return Node("repeat", t.line, e=els[0], n=n)
                self.eat(",")
            return Node("array", t.line, elems=els)
        if self.at("{"):
            return self.block()
        if self.at("unsafe"):
            self.i += 1
            return self.block()
        if self.at("if") and self.at("let", 1):
            return self.if_let()
        if self.at("|") and self.at("_", 1) and self.at("|", 2):
            self.i += 3
            return Node("closure", t.line, body=self.expr())
        if self.at("if"):
            self.i += 1
            c = self.expr(no_struct=True)
            th = self.block()
            el = None
            if self.eat("else"):
                el = self.primary(False) if self.at("if") else self.block()
            return Node("if", t.line, cond=c, then=th, els=el)
        if self.at("while"):
            self.i += 1
            c = self.expr(no_struct=True)
            return Node("while", t.line, cond=c, body=self.block())
        if self.at("for"):
            self.i += 1
            p = self.pattern()
            self.need("in")
            it = self.expr(no_struct=True)
            return Node("for", t.line, pat=p, it=it, body=self.block())
        if self.at("match"):
            self.i += 1
            e = self.expr(no_struct=True)
            self.need("{")
            arms = []
            while not self.eat("}"):
                p = self.pattern()
                self.need("=>")
                arms.append((p, self.expr()))
                self.eat(",")
            return Node("match", t.line, e=e, arms=arms)
        if self.at("true") or self.at("false"):
            self.i += 1
            return Node("bool", t.line, value=t.text == "true")
        name = self.macro_name()
        if name is not None:
            toks, line = self.macro_args()
            if name == "stringify":
                return Node("str", line, text='"' + render(toks) + '"')
            if name in BUILTIN:
                sub = Parser(toks, self.exp)
                args = []
                while sub.peek().kind != "eof":
                    args.append(sub.expr())
                    sub.eat(",")
                return Node("builtin", line, name=name, args=args)
            sub = Parser(self.exp.expand(name, toks, line), self.exp)
            e = sub.expr()
            if sub.peek().kind != "eof":
                raise Unsupported(f"line {line}: {name}! is not an expression")
            return e
        if t.kind == "id" or self.at("<") or self.at("::"):
            p = self.path()
            if self.at("{") and not no_struct:
                self.i += 1
                fields, base = [], None
                while not self.eat("}"):
                    if self.eat(".."):
                        base = self.expr()
                        continue
                    f = self.ident()
                    if self.eat(":"):
                        fields.append((f.text, self.expr()))
                    else:
                        fields.append((f.text, Node("path", f.line, segs=[f.text], gens=[[]],
                                                    qself=None, mark=f.mark)))
                    self.eat(",")
                return Node("struct", t.line, path=p, fields=fields, base=base)
            return p
        raise Unsupported(f"line {t.line}: unexpected {t.text!r}")


def finish_block(stmts, line):
    """The last expression statement without a semicolon is the value of the block."""
    tail = None
    if stmts and stmts[-1].kind == "sexpr" and not stmts[-1].semi:
        tail = stmts[-1].e
        stmts = stmts[:-1]
    return Node("block", line, stmts=stmts, tail=tail)


def render(toks):
    s = ""
    for t in toks:
        if s and t.text not in (",", ";", ")", "]", ".", "[", "(") and s[-1] not in "([.":
            s += " "
        s += t.text
    return s


# ---------------------------------------------------------------- cfg

def eval_cfg(toks, cfg):
    ps = Parser(toks, None)

    def one():
        name = ps.ident().text
        if name in ("all", "any", "not"):
            ps.need("(")
            vals = []
            while not ps.eat(")"):
                vals.append(one())
                ps.eat(",")
            return all(vals) if name == "all" else any(vals) if name == "any" else not vals[0]
        if ps.eat("="):
            val = ps.peek().text
            ps.i += 1
            return cfg.get(f"{name}={val}", False)  # keys such as feature="std"
        return cfg.get(name, False)

    return one()


# ---------------------------------------------------------------- items

class Fn:
    """A function: `owner` is the `impl` type's name or the inline module's name."""


class Module:
    def __init__(self, name, path):
        self.name, self.path = name, path
        self.consts, self.structs, self.fns, self.assoc = {}, {}, {}, {}
        self.index_impls, self.traits, self.submods, self.skipped = {}, {}, set(), []
        self.impl_traits = {}
        self.exp = None


def parse_module(name, path, text, macros, cfg):
    """`macros`: those in scope from other files; the module's own ones are added to a copy."""
    mod = Module(name, path)
    toks = lex(text, path)
    exp = Expander(dict(macros))
    exp.cfg = cfg
    mod.exp = exp
    collect_macros(toks, exp, cfg)
    items(Parser(toks, exp), mod, None, None)
    return mod


def collect_macros(toks, exp, cfg):
    """`macro_rules!` definitions, also inside inline `#[macro_use]` modules."""
    ps = Parser(toks, exp)
    while ps.peek().kind != "eof":
        keep = ps.attrs()
        if ps.at("macro_rules") and ps.at("!", 1):
            name = ps.peek(2).text
            ps.i += 3
            j = close_of(ps.toks, ps.i)
            if keep:
                exp.macros[name] = Macro(name, ps.toks[ps.i + 1:j])
            ps.i = j + 1
        elif ps.at("mod") and ps.at("{", 2):
            ps.i += 2
            j = close_of(ps.toks, ps.i)
            if keep:
                collect_macros(ps.toks[ps.i + 1:j], exp, cfg)
            ps.i = j + 1
        elif ps.peek().text in OPEN:
            ps.i = close_of(ps.toks, ps.i) + 1
        else:
            ps.i += 1


def skip_generics(ps):
    """Generic parameters `<E: HashEngine, const N: usize>`; returns their names with bounds."""
    out = []
    if not ps.at("<"):
        return out
    depth, j, start = 0, ps.i, ps.i
    while True:
        x = ps.toks[j].text
        depth += {"<": 1, ">": -1, ">>": -2}.get(x, 0)
        j += 1
        if depth == 0:
            break
    inner = ps.toks[start + 1:j - 1]
    ps.i = j
    k, depth, cur = 0, 0, []
    parts = []
    for t in inner:
        depth += {"<": 1, ">": -1, ">>": -2, "(": 1, ")": -1, "[": 1, "]": -1}.get(t.text, 0)
        if t.text == "," and depth == 0:
            parts.append(cur)
            cur = []
        else:
            cur.append(t)
    if cur:
        parts.append(cur)
    for p in parts:
        if p[0].kind == "life":
            continue
        if p[0].text == "const":
            out.append((p[1].text, "const"))
        else:
            k = 2
            while k + 2 < len(p) and p[k + 1].text == "::":
                k += 2
            out.append((p[0].text, p[k].text if len(p) > 2 else None))
    return out


def impl_write(toks, line):
    """`impl_write!(T, |us: &mut T, buf| { .. }, |us| { .. }, G: B)` of the crate `bitcoin_io`."""
    parts, depth, bars = [[]], 0, 0
    for t in toks:
        depth += {"(": 1, ")": -1, "[": 1, "]": -1, "{": 1, "}": -1, "<": 1, ">": -1}.get(t.text, 0)
        bars += t.text == "|"
        if t.text == "," and depth == 0 and bars % 2 == 0:
            parts.append([])
        else:
            parts[-1].append(t)
    ty, wr, fl, gens = parts[0], parts[1], parts[2], [t for p in parts[3:] for t in p + lex(",")]
    us, buf, us2 = wr[1:2], [t for t in wr if t.text == "buf"][:1], fl[1:2]

    def w(text):
        return [Tok(t.kind, t.text, line, file=ty[0].file) for t in lex(text)]

    def body(p):
        return p[max(k for k, t in enumerate(p) if t.text == "|") + 1:]
    return (w("impl <") + gens + w("> bitcoin_io::Write for") + ty + w("{ fn write(") + us + w(": &mut") + ty
            + w(",") + buf + w(": &[u8]) -> Result<usize, bitcoin_io::Error>") + body(wr) + w("fn flush(") + us2
            + w(": &mut") + ty + w(") -> Result<(), bitcoin_io::Error>") + body(fl) + w("}"))


def where_bounds(gens, toks):
    """Adds the bounds of a `where` clause; `I: IntoIterator<Item = B>` becomes "IntoIterator B"."""
    bounds = dict(gens)
    for k in range(len(toks) - 2):
        if toks[k].text in bounds and toks[k + 1].text == ":":
            j = k + 2
            while j + 2 < len(toks) and toks[j + 1].text == "::":
                j += 2
            b = toks[j].text
            if b == "IntoIterator":
                rest = [t.text for t in toks[k + 3:]]
                b += " " + rest[rest.index("Item") + 2]
            bounds[toks[k].text] = b
    return [(n, bounds[n]) for n, _ in gens]


def items(ps, mod, owner, submod):
    while ps.peek().kind != "eof":
        keep = ps.attrs()
        derives = ps.derives
        start = ps.i
        t = ps.peek()
        if ps.eat("pub"):
            if ps.at("("):
                ps.i = close_of(ps.toks, ps.i) + 1
        t = ps.peek()
        if ps.at("use") or ps.at("extern"):
            while not ps.eat(";"):
                ps.i += 1
        elif ps.at("macro_rules"):
            ps.i += 3
            ps.i = close_of(ps.toks, ps.i) + 1
            ps.eat(";")
        elif ps.at("mod"):
            name = ps.peek(1).text
            ps.i += 2
            if ps.eat(";"):
                continue
            j = close_of(ps.toks, ps.i)
            if keep:
                mod.submods.add(name)
                items(Parser(ps.toks[ps.i + 1:j], ps.exp), mod, None, name)
            ps.i = j + 1
        elif ps.at("const") and not ps.at("fn", 1):
            ps.i += 1
            name = ps.ident().text
            ps.need(":")
            ty = ps.ty()
            val = ps.expr() if ps.eat("=") else None
            ps.need(";")
            if keep:
                mod.consts[qual(owner, submod, name)] = Node("const", t.line, ty=ty, val=val,
                                                             owner=owner)
        elif ps.at("struct"):
            ps.i += 1
            name = ps.ident().text
            gens = skip_generics(ps)
            fields = []
            if ps.eat("("):
                n = 0
                while not ps.eat(")"):
                    ps.attrs()
                    if ps.eat("pub") and ps.at("("):
                        ps.i = close_of(ps.toks, ps.i) + 1
                    fields.append((f"f{n}", ps.ty()))
                    n += 1
                    ps.eat(",")
                ps.need(";")
                tup = True
            else:
                ps.need("{")
                while not ps.eat("}"):
                    ps.attrs()
                    if ps.eat("pub") and ps.at("("):
                        ps.i = close_of(ps.toks, ps.i) + 1
                    f = ps.ident().text
                    ps.need(":")
                    fields.append((f, ps.ty()))
                    ps.eat(",")
                tup = False
            if keep:
                mod.structs[name] = Node("structdef", t.line, name=name, fields=fields, gens=gens,
                                         tup=tup, end=ps.toks[ps.i - 1].line, derives=derives)
        elif ps.at("impl"):
            ps.i += 1
            gens = skip_generics(ps)
            first = ps.ty()
            trait, target = None, first
            if ps.eat("for"):
                trait, target = first, ps.ty()
            if ps.at("where"):
                start = ps.i
                while not ps.at("{"):
                    ps.i += 1
                gens = where_bounds(gens, ps.toks[start + 1:ps.i])
            j = close_of(ps.toks, ps.i)
            if keep:
                o = Node("impl", t.line, trait=trait.segs[-1] if trait else None,
                         trait_path=trait, target=target, name=target.segs[-1], gens=gens,
                         assoc={})
                if o.trait:
                    mod.impl_traits.setdefault(o.name, []).append(o)
                items(Parser(ps.toks[ps.i + 1:j], ps.exp), mod, o, submod)
            ps.i = j + 1
        elif ps.at("trait"):
            ps.i += 1
            name = ps.ident().text
            while not ps.at("{"):
                ps.i += 1
            j = close_of(ps.toks, ps.i)
            if keep:
                o = Node("impl", t.line, trait=None, trait_path=None, target=None, name=name,
                         gens=[("Self", name)], assoc={}, is_trait=True)
                mod.traits[name] = o
                items(Parser(ps.toks[ps.i + 1:j], ps.exp), mod, o, submod)
            ps.i = j + 1
        elif ps.at("type"):
            ps.i += 1
            name = ps.ident().text
            if ps.at(":") or ps.at(";"):
                while not ps.eat(";"):
                    ps.i += 1
                continue
            ps.need("=")
            ty = ps.ty()
            ps.need(";")
            if keep and owner is not None:
                owner.assoc[name] = ty
        elif is_fn(ps):
            fn_item(ps, mod, owner, submod, keep)
        elif ps.macro_name() is not None:
            name = ps.macro_name()
            toks, line = ps.macro_args()
            ps.eat(";")
            if keep:
                try:
                    ex = impl_write(toks, line) if name == "impl_write" else ps.exp.expand(name, toks, line)
                    items(Parser(ex, ps.exp), mod, owner, submod)
                except Unsupported as e:
                    mod.skipped.append((f"{name}!", line, str(e)))
        else:
            raise Unsupported(f"{mod.name} line {t.line}: item starting with {t.text!r}")
        assert ps.i > start


def qual(owner, submod, name):
    if owner is not None:
        return owner.name + "::" + name
    if submod is not None:
        return submod + "::" + name
    return name


def is_fn(ps):
    k = 0
    while ps.peek(k).text in ("const", "unsafe", "async"):
        k += 1
    return ps.at("fn", k)


def fn_item(ps, mod, owner, submod, keep):
    line, file = ps.peek().line, ps.peek().file
    while not ps.at("fn"):
        ps.i += 1
    ps.i += 1
    f = Fn()
    f.name = ps.ident().text
    f.owner, f.submod, f.mod = owner, submod, mod
    f.line, f.file = line, file
    f.gens = skip_generics(ps)
    ps.need("(")
    j = close_of(ps.toks, ps.i - 1)
    sub = Parser(ps.toks[ps.i:j], ps.exp)
    ps.i = j + 1
    f.sig_error, f.params, f.ret, f.body = None, [], None, None
    try:
        f.params = [(n, m, t, "own" if is_formatter(t) else mode) for n, m, t, mode in fn_params(sub)]
        f.ret = ps.ty() if ps.eat("->") else None
    except Unsupported as e:
        f.sig_error = str(e)
    start = ps.i
    while not (ps.at("{") or ps.at(";")):
        ps.i = close_of(ps.toks, ps.i) + 1 if ps.peek().text in "([" else ps.i + 1
    f.gens = where_bounds(f.gens, ps.toks[start + 1:ps.i])
    if ps.at(";"):
        ps.i += 1
        f.end = line
    else:
        j = close_of(ps.toks, ps.i)
        f.end = ps.toks[j].line
        if keep and f.sig_error is None:
            try:
                b = Parser(ps.toks[ps.i:j + 1], ps.exp)
                f.body = b.block()
            except Unsupported as e:
                f.sig_error = str(e)
        ps.i = j + 1
    if keep:
        key = qual(owner, submod, f.name)
        if owner is not None and owner.trait == "Index":
            body_ok = (f.body is not None and not f.body.stmts
                       and is_self0_index(f.body.tail))
            mod.index_impls[owner.name] = mod.index_impls.get(owner.name, True) and body_ok
            arg = owner.trait_path.gens[-1][0]
            name = "" if any(g[0] == arg.segs[-1] for g in owner.gens) else arg.segs[-1].capitalize() \
                if arg.segs[-1] == "usize" else arg.segs[-1]
            f.key = "::".join(owner.target.segs) + "::Index" + name + "::" + f.name
            mod.fns[f.key] = f
            return
        if owner is not None and owner.trait in ("AsRef", "PartialEq", "PartialOrd", "Ord", "Clone",
                                                 "Write", "FromStr", "FromHex", "LowerHex",
                                                 "UpperHex", "Display", "Debug", "Hash", "Visitor",
                                                 "SerdeHash", "Serialize", "Deserialize",
                                                 "JsonSchema"):
            arg = owner.trait_path.gens[-1][0] if owner.trait_path.gens[-1] else None
            name = owner.trait + ("Array" if arg is not None and arg.kind == "tarr" else "")
            if owner.trait == "Write" and owner.trait_path.segs[0] == "std":
                name = "StdWrite"
            f.key = "::".join(owner.target.segs) + "::" + name + "::" + f.name
            mod.fns[f.key] = f
            return
        if owner is not None and owner.trait is not None and owner.trait not in (
                "HashEngine", "Default"):
            mod.skipped.append((f"{owner.name} as {owner.trait}::{f.name}", line, "other trait"))
            return
        if owner is not None and owner.trait == "HashEngine":
            key = owner.name + "::" + f.name
            if key in mod.fns:         # an inherent method of the same name takes precedence
                key = owner.name + "::HashEngine::" + f.name
        elif key in mod.fns and mod.fns[key].owner is not None and mod.fns[key].owner.trait:
            mod.fns[key].key = owner.name + "::HashEngine::" + f.name
            mod.fns[mod.fns[key].key] = mod.fns[key]
        f.key = key
        mod.fns[key] = f


def is_formatter(t):
    return t != "self" and t.kind == "tref" and t.inner.kind == "path" and \
        t.inner.segs[-1] in ("Formatter", "SchemaGenerator")


def is_self0_index(e):
    return (e is not None and e.kind == "ref" and e.e.kind == "index" and e.e.e.kind == "field"
            and e.e.e.name == "f0" and e.e.e.e.kind == "path" and e.e.e.e.segs == ["self"]
            and e.e.i.kind == "path" and e.e.i.segs == ["index"])


def fn_params(sub):
    """Parameters as (name, mark, type node or "self", mode); mode is own, ref or mut."""
    out = []
    while sub.peek().kind != "eof":
        sub.attrs()
        k = sub.i
        mode = "own"
        if sub.eat("&"):
            if sub.peek().kind == "life":
                sub.i += 1
            mode = "mut" if sub.eat("mut") else "ref"
        else:
            sub.eat("mut")
        if sub.at("self"):
            mark = sub.peek().mark
            sub.i += 1
            out.append(("self", mark, "self", mode))
        else:
            sub.i = k
            sub.eat("mut")
            name = sub.ident()
            sub.need(":")
            ty = sub.ty()
            m = "own"
            if ty.kind == "tref":
                m = "mut" if ty.mut else "ref"
            out.append((name.text, name.mark, ty, m))
        sub.eat(",")
    return out
