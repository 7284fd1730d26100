"""Writes small edits of the Rust text for tools/mutate_rust.py.

Usage: python3 tools/sweep_rust.py COUNT SEED > FILE.json

Takes COUNT edits at random, about equally many from each file of /repo/src, out of: a literal
incremented; a string changed; an operator or a method replaced by a related one; a negation dropped; a
statement deleted; two neighbouring arguments or array elements swapped.  Tests, comments, attributes and what
is compiled only for fuzzing are left alone.  The property named is the one an edit should break unless
it changes nothing; which of the edits left standing change nothing is for the reader to judge.
"""
import json, pathlib, random, re, sys

SRC = pathlib.Path("/repo/src")
FILES = ["cmp.rs", "hmac.rs", "impls.rs", "internal_macros.rs", "lib.rs", "ripemd160.rs", "serde_macros.rs", "sha1.rs",
         "sha256.rs", "sha256t.rs", "sha384.rs", "sha512.rs", "sha512_256.rs", "siphash24.rs"]
PROP = {"cmp.rs": "C70", "internal_macros.rs": "C68", "hmac.rs": "C68", "impls.rs": "C75", "lib.rs": "C72",
        "serde_macros.rs": "C76"}
SWAPS = {"+": "-", "-": "+", "^": "|", "&": "|", "|": "&", "<<": ">>", ">>": "<<", "<": "<=", "<=": "<",
         ">": ">=", ">=": ">", "==": "!=", "!=": "==", "%": "/", "/": "%", "*": "+", "+=": "-=", "-=": "+=",
         "^=": "|=", "|=": "^=", "..=": "..", "&&": "||", "||": "&&"}
NAMES = {"wrapping_add": "wrapping_sub", "rotate_left": "rotate_right", "to_be_bytes": "to_le_bytes",
         "to_le_bytes": "to_be_bytes", "from_be_bytes": "from_le_bytes", "from_le_bytes": "from_be_bytes",
         "Ch": "Maj", "Maj": "Ch", "sigma0": "sigma1", "sigma1": "sigma0", "Sigma0": "Sigma1",
         "Sigma1": "Sigma0", "to_le": "to_be", "true": "false", "false": "true", "min": "max"}
TOKEN = re.compile(r"0x[0-9a-fA-F_]+|\d[\d_]*|[A-Za-z_]\w*|\.\.=|\.\.|<<=|>>=|<<|>>|<=|>=|==|!=|\+=|-=|\^=|\|=|&=|"
                   r"\*=|&&|\|\||->|=>|::|[-+*/%^&|<>=!,;(){}\[\].#$?'\"]")


def blank(text):
    """The text with everything that is not to be edited replaced by blanks."""
    def fill(m):
        return re.sub(r"\S", " ", m.group(0))
    text = re.sub(r"//[^\n]*", fill, text)
    text = re.sub(r"hash_type! \{[^}]*", fill, text)
    text = re.sub(r'"(\\.|[^"\\])*"', lambda m: '"' + " " * (len(m.group(0)) - 2) + '"', text)
    cut = re.search(r"#\[cfg\((all\()?test[^\]]*\]\s*mod|#\[test\]|#\[cfg\(bench\)\]\s*mod", text)
    if cut:
        text = text[:cut.start()] + re.sub(r"\S", " ", text[cut.start():])
    out = text
    for m in re.finditer(r"#\[cfg\((hashes_fuzz|feature = \"\s*\")\)\]\s*(pub )?(fn|impl|mod)", text):
        if "hashes_fuzz" in m.group(0):
            i, depth = text.index("{", m.start()), 0
            for j in range(i, len(text)):
                depth += {"{": 1, "}": -1}.get(text[j], 0)
                if not depth:
                    break
            out = out[:m.start()] + re.sub(r"\S", " ", out[m.start():j + 1]) + out[j + 1:]
    return re.sub(r"#!?\[[^\]]*\]", fill, out)


def edits(name):
    raw = (SRC / name).read_text()
    text = blank(raw)
    toks = [(m.group(0), m.start()) for m in TOKEN.finditer(text)]
    for k, (t, at) in enumerate(toks):
        prev = toks[k - 1][0] if k else ""
        binary = prev and (prev in ")]" or re.match(r"\w", prev)) and prev not in ("return", "in", "as", "mut")
        if t[0].isdigit():
            v = int(t.replace("_", ""), 0)
            yield at, t, (hex(v ^ 1) if t.startswith("0x") else str(v + 1)), f"{t} incremented"
        elif t in SWAPS and (binary or t not in "-&*") and (
                "." in t or text[at - 1] == " " == text[at + len(t)] or t in "+-*/" and binary):
            yield at, t, SWAPS[t], f"`{t}` becomes `{SWAPS[t]}`"
        elif t in NAMES and prev != "fn":
            yield at, t, NAMES[t], f"`{t}` becomes `{NAMES[t]}`"
        elif t == "!" and prev in ("(", "&&", "||", "|", "if") and not binary:
            yield at, t, "", "`!` dropped"
        elif t == "," and k + 1 < len(toks):
            a = re.search(r"([\w.$]+|0x\w+)$", text[:at])
            b = re.match(r",(\s*)([\w.$]+)\s*(?=[,)\]])", text[at:])
            if a and b and a.group(1) != b.group(2) and re.search(r"[(,\[]\s*$", text[:a.start()]):
                old = a.group(1) + "," + b.group(1) + b.group(2)
                yield a.start(), old, b.group(2) + "," + b.group(1) + a.group(1), f"`{old}` swapped"
    for m in re.finditer(r'"[^"\\\n]+"', text):
        if not m.group(0).strip('" '):
            yield m.start(), raw[m.start():m.end()], '"?' + raw[m.start() + 2:m.end()], "string changed"
    for m in re.finditer(r"^[ ]+([^\n{}]*[^\n{},;(] ?[^\n{}]*;)[ ]*$", text, re.M):
        line = m.group(1)
        if not re.match(r"(let|const|pub|use|type|crate|fn|return|break|struct|\$crate|mod|\w+:)", line) \
                and raw[m.start(1):m.end(1)] == line:
            yield m.start(1), line, "", f"`{line}` deleted"


def main():
    count, seed = int(sys.argv[1]), int(sys.argv[2])
    rnd, out = random.Random(seed), []
    pools = {f: list(edits(f)) for f in FILES}
    for f in FILES:
        rnd.shuffle(pools[f])
    while len(out) < count and any(pools.values()):
        for f in FILES:
            if pools[f] and len(out) < count:
                at, old, new, what = pools[f].pop()
                line = (SRC / f).read_text()[:at].count("\n") + 1
                col = at - (SRC / f).read_text().rfind("\n", 0, at)
                out.append({"id": f"rs-{f[:-3]}-{line}-{col}-{re.sub(r'[^a-z]', '', what)[-4:]}", "file": f, "at": at,
                            "old": old, "new": new, "edit": f"line {line}: {what}",
                            "claim": "generated edit", "props": [PROP.get(f, "C67")]})
    json.dump(out, sys.stdout, indent=0)
    print({f: len(p) for f, p in pools.items()}, file=sys.stderr)


main()
