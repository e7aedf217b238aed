#!/usr/bin/env python3
"""Translate the pest grammars of /repo/src/pest into Lean definitions (Verif/Grammar/*.lean).

Every rule reachable from the entry rules becomes one definition whose doc comment cites the
grammar file, the lines and the source text of the rule.  Run: tools/pest2lean.py"""
import re, os

SRC = "/repo/src/pest"
OUT = os.path.join(os.path.dirname(os.path.abspath(__file__)), "..", "lean", "Verif", "Grammar")
KEYWORDS = {"section", "end", "open", "global", "prefix", "infix", "local", "where"}
BUILTIN = {
    "ANY": ".any", "SOI": ".soi", "EOI": "(.eoi .EOI)", "NEWLINE": ".newline",
    "ASCII_DIGIT": "(.cls isAsciiDigit)", "ASCII_ALPHA_UPPER": "(.cls isAsciiUpper)",
    "ASCII_ALPHA": "(.cls isAsciiAlpha)", "ASCII_ALPHANUMERIC": "(.cls isAsciiAlphanumeric)",
    "LETTER": "(.cls UnicodeTables.letter)", "NUMBER": "(.cls UnicodeTables.number)", "POP": ".pop",
}

def ident(n):
    return n + "_" if n in KEYWORDS else n

TOK = re.compile(r"""\s+|//[^\n]*|(?P<str>"(?:\\.|[^"\\])*")|(?P<chr>'(?:\\.|[^'\\])*')|(?P<id>[A-Za-z_][A-Za-z0-9_]*)|(?P<num>\d+)|(?P<op>\.\.|[=@$_!~|?*+{}(),])""")

def tokenize(text):
    pos, out = 0, []
    while pos < len(text):
        m = TOK.match(text, pos)
        if not m:
            raise SyntaxError(text[pos:pos + 40])
        if m.lastgroup:
            out.append((m.lastgroup, m.group(), m.start(), m.end()))
        pos = m.end()
    return out

class Parser:
    def __init__(self, toks):
        self.t, self.i = toks, 0
    def peek(self, k=0):
        return self.t[self.i + k][1] if self.i + k < len(self.t) else None
    def kind(self):
        return self.t[self.i][0]
    def take(self, want=None):
        tok = self.t[self.i]
        if want is not None and tok[1] != want:
            raise SyntaxError(f"wanted {want} got {tok}")
        self.i += 1
        return tok
    def rules(self):
        out = []
        while self.i < len(self.t):
            name = self.take()
            self.take("=")
            mod = ""
            if self.peek() in ("@", "$", "_"):
                mod = self.take()[1]
            self.take("{")
            e = self.choice()
            end = self.take("}")
            out.append((name[1], mod, e, name[2], end[3]))
        return out
    def choice(self):
        xs = [self.sequence()]
        while self.peek() == "|":
            self.take()
            xs.append(self.sequence())
        return xs[0] if len(xs) == 1 else ("alt", xs)
    def sequence(self):
        xs = [self.prefix()]
        while self.peek() == "~":
            self.take()
            xs.append(self.prefix())
        return xs[0] if len(xs) == 1 else ("seq", xs)
    def prefix(self):
        if self.peek() == "!":
            self.take()
            return ("not", self.prefix())
        return self.postfix()
    def postfix(self):
        e = self.atom()
        while True:
            p = self.peek()
            if p == "?":
                self.take(); e = ("opt", e)
            elif p == "*":
                self.take(); e = ("star", e)
            elif p == "+":
                self.take(); e = ("plus", e)
            elif p == "{" :
                self.take()
                lo = int(self.take()[1]); hi = lo
                if self.peek() == ",":
                    self.take(); hi = int(self.take()[1])
                self.take("}")
                e = ("rep", e, lo, hi)
            else:
                return e
    def atom(self):
        k = self.kind()
        if self.peek() == "(":
            self.take(); e = self.choice(); self.take(")")
            return e
        if k == "str":
            return ("str", unesc(self.take()[1][1:-1]))
        if k == "chr":
            a = unesc(self.take()[1][1:-1]); self.take(".."); b = unesc(self.take()[1][1:-1])
            return ("range", a, b)
        if k == "id":
            n = self.take()[1]
            if n == "PUSH":
                self.take("("); e = self.choice(); self.take(")")
                return ("push", e)
            return ("ref", n)
        raise SyntaxError(str(self.t[self.i]))

def unesc(s):
    s = re.sub(r"\\u\{([0-9a-fA-F]+)\}", lambda m: chr(int(m.group(1), 16)), s)
    return s.replace("\\n", "\n").replace("\\r", "\r").replace("\\t", "\t").replace('\\"', '"').replace("\\\\", "\\")

def leanchar(c):
    m = {"\n": "\\n", "\r": "\\r", "\t": "\\t", "'": "\\'", "\\": "\\\\"}
    if c in m: return "'" + m[c] + "'"
    if ord(c) > 126: return f"(Char.ofNat 0x{ord(c):x})"
    return "'" + c + "'"

def leanstr(s):
    if all(32 <= ord(c) < 127 and c not in "\\\"" for c in s) and s:
        return 'c!"' + s + '"'
    return "[" + ", ".join(leanchar(c) for c in s) + "]"

def refs(e):
    if e[0] == "ref": return {e[1]}
    out = set()
    for x in e[1:]:
        if isinstance(x, tuple): out |= refs(x)
        elif isinstance(x, list):
            for y in x: out |= refs(y)
    return out

def show(e, base=None):
    k = e[0]
    if k == "str": return f"(.str {leanstr(e[1])})"
    if k == "range": return f"(.cls (inRange {leanchar(e[1])} {leanchar(e[2])}))"
    if k == "ref":
        return BUILTIN.get(e[1]) or ident(e[1])
    if k == "seq" and len(e[1]) == 3 and e[1][0][0] == "push" and e[1][2] == ("ref", "POP"):
        # only used in atomic rules, see `eval_dup` in lean/Verif/Peg/Exact.lean
        return f"(.dup {show(e[1][0][1])} {show(e[1][1])})"
    if k == "seq": return "(" + " ⬝ ".join(show(x) for x in e[1]) + ")"
    if k == "alt": return "(" + " ∥ ".join(show(x) for x in e[1]) + ")"
    if k == "opt": return f"(.opt {show(e[1])})"
    if k == "star": return f"(.star {show(e[1])})"
    if k == "plus": return f"(.plus {show(e[1])})"
    if k == "not": return f"(.not {show(e[1])})"
    if k == "push": return f"(.push {show(e[1])})"
    if k == "rep":
        x = show(e[1]); lo, hi = e[2], e[3]
        return "(" + " ⬝ ".join([x] * lo + [f"(.opt {x})"] * (hi - lo)) + ")"
    raise ValueError(k)

def load(files):
    rules = {}
    for f in files:
        text = open(os.path.join(SRC, f)).read()
        for (n, mod, e, a, b) in Parser(tokenize(text)).rules():
            assert n not in rules, n
            l1 = text.count("\n", 0, a) + 1
            l2 = text.count("\n", 0, b) + 1
            rules[n] = (mod, e, f, l1, l2, text[a:b])
    return rules

# base.pest bodies that are shared between the grammars (token-free, so independent of `Rule`)
SHARED = ["NL", "decimal", "integer", "pos_integer", "deg", "min", "hemi", "direction",
          "runway_designator", "colon_delimited_text", "comma_delimited_text",
          "backslash_delimited_text", "quote_delimited_text", "tab_delimited_text"]

def cite(rules, n):
    mod, e, f, l1, l2, src = rules[n]
    where = f"/repo/src/pest/{f}:{l1}" + (f"-{l2}" if l2 != l1 else "")
    src = re.sub(r"\s+", " ", src).replace("-/", "- /").replace("/-", "/ -")
    return f"/-- {where}: `{src}` -/"

def gen_base():
    rules = load(["base.pest"])
    out = ["import Verif.Peg.Core", "/-!", "# Token-free rule bodies of `/repo/src/pest/base.pest`", "",
           "Generated by `tools/pest2lean.py`: the bodies of the rules of the shared grammar file that",
           "contain no other token rule.", "-/", "", "namespace Verif", "",
           "/-- `'a'..'b'` in a grammar -/",
           "def inRange (a b : Char) (c : Char) : Bool := decide (a.toNat ≤ c.toNat) && decide (c.toNat ≤ b.toNat)", "",
           "/-- `ASCII_ALPHA` -/", "def isAsciiAlpha (c : Char) : Bool := isAsciiUpper c || isAsciiLower c", "",
           "/-- `ASCII_ALPHANUMERIC` -/",
           "def isAsciiAlphanumeric (c : Char) : Bool := isAsciiAlpha c || isAsciiDigit c", "",
           "namespace Peg.Base", "variable {R : Type}", ""]
    for n in SHARED:
        out += [cite(rules, n), f"def {ident(n)} : Expr R := {show(rules[n][1])}", ""]
    out += ["end Peg.Base", "end Verif", ""]
    open(os.path.join(OUT, "Base.lean"), "w").write("\n".join(out))

def gen(name, files, entries, title):
    rules = load(files)
    order, seen = [], set()
    implicit = [n for n in ("WHITESPACE", "COMMENT") if n in rules]
    def visit(n):
        if n in BUILTIN or n in seen: return
        seen.add(n)
        for r in sorted(refs(rules[n][1]), key=lambda r: list(rules).index(r) if r in rules else -1):
            visit(r)
        order.append(n)
    for n in implicit + entries: visit(n)
    uni = False
    body = []
    unicode_rules = set()
    for n in order:
        mod, e, f, l1, l2, src = rules[n]
        rs = refs(e)
        needs = bool(rs & {"LETTER", "NUMBER"}) or bool(rs & unicode_rules)
        if needs: unicode_rules.add(n)
        assert "'push'" not in repr(e) or mod in ("@", "$"), n
        if f == "base.pest" and n in SHARED:
            ex = "Base." + ident(n)
        else:
            ex = show(e)
        if n in ("WHITESPACE", "COMMENT"):
            ex = f".quiet {ex}"
        elif mod == "_":
            pass
        else:
            ty = {"": ".normal", "@": ".atomic", "$": ".compound"}[mod]
            ex = f".rule .{ident(n)} {ty} {ex}"
        if ex.startswith("(") and ex.endswith(")") and not ex.startswith("(.") : ex = ex[1:-1]
        u = "[UnicodeTables] " if needs else ""
        line = f"def {ident(n)} {u}: Expr Rule :="
        body += [cite(rules, n), line + ("\n  " if len(line) + len(ex) > 98 else " ") + ex, ""]
    toks = [n for n in order if rules[n][0] != "_" and n not in ("WHITESPACE", "COMMENT")]
    out = ["import Verif.Grammar.Base", "/-!", f"# {title}", "",
           "Generated by `tools/pest2lean.py` from " + ", ".join("`/repo/src/pest/%s`" % f for f in files) + ".",
           "Only rules reachable from the entry rules " + ", ".join(f"`{e}`" for e in entries) + " are present.",
           "-/", "", f"namespace Verif.Peg.{name}", "",
           "/-- The generated `Rule` (rules that emit tokens). -/", "inductive Rule where", "  | EOI"]
    out += [f"  | {ident(n)}" for n in toks]
    out += ["  deriving DecidableEq, Repr", ""]
    out += body
    if len(implicit) == 2:
        sk = "skipBoth WHITESPACE COMMENT"
        what = "`WHITESPACE* ~ (COMMENT ~ WHITESPACE*)*`"
    elif len(implicit) == 1:
        sk = "skipOne " + implicit[0]; what = f"`{implicit[0]}*`"
    else:
        sk = "noSkip"; what = "nothing"
    cs = "; ".join(f"/repo/src/pest/{rules[n][2]}:{rules[n][3]}" for n in implicit)
    out += [f"/-- The implicit skip of this grammar: {what} ({cs}). -/", f"def skip : St → Res Rule := {sk}", "",
            f"end Verif.Peg.{name}", ""]
    open(os.path.join(OUT, name + ".lean"), "w").write("\n".join(out))

os.makedirs(OUT, exist_ok=True)
gen_base()
G = [("Isec", ["isec.pest"], ["wpts"], "Grammar of isec.txt"),
     ("Prf", ["prf.pest"], ["prf"], "Grammar of profiles"),
     ("Airway", ["airway.pest"], ["airways"], "Grammar of airway.txt"),
     ("Asr", ["asr.pest"], ["asr"], "Grammar of ASR files"),
     ("IcaoAircraft", ["base.pest", "icao_aircraft.pest"], ["aircraft"], "Grammar of ICAO_Aircraft.txt"),
     ("IcaoAirlines", ["base.pest", "icao_airlines.pest"], ["airlines"], "Grammar of ICAO_Airlines.txt"),
     ("IcaoAirports", ["base.pest", "icao_airports.pest"], ["aircraft"], "Grammar of ICAO_Airports.txt"),
     ("NavdataAirports", ["base.pest", "navdata_airports.pest"], ["airports"], "Grammar of navdata airports"),
     ("TopskySettings", ["topsky_settings.pest"], ["settings"], "Grammar of TopSky settings"),
     ("Symbology", ["base.pest", "symbol_rule.pest", "symbology.pest"], ["symbology"], "Grammar of symbology files"),
     ("Topsky", ["base.pest", "symbol_rule.pest", "topsky.pest"], ["symbols", "maps"], "Grammar of TopSky symbols and maps"),
     ("Sct", ["base.pest", "sct.pest"], ["sct"], "Grammar of SCT files"),
     ("Ese", ["base.pest", "ese.pest"], ["ese"], "Grammar of ESE files")]
for g in G: gen(*g)
