#!/usr/bin/env python3
"""Write lean/Verif/Tokens/<Grammar>.lean from lean/Verif/Grammar/<Grammar>.lean: for every rule that
emits a token, the (definitional) equivalence that says so."""
import re, os, glob
base = os.path.join(os.path.dirname(os.path.abspath(__file__)), "..", "lean", "Verif")
os.makedirs(os.path.join(base, "Tokens"), exist_ok=True)
for path in sorted(glob.glob(os.path.join(base, "Grammar", "*.lean"))):
    g = os.path.basename(path)[:-5]
    if g == "Base":
        continue
    s = open(path).read()
    out = [f"import Verif.Grammar.{g}", "import Verif.Peg.Kids", "/-!", f"# Tokens of the grammar `{g}`", "",
           "Generated by `tools/tokens.py`.", "-/", "", f"namespace Verif.Peg.{g}", "",
           "variable {K : Str → Str → Prop} {ts : List (Tree Rule)}", ""]
    for m in re.finditer(r"^def (\S+)( \[UnicodeTables\])? : Expr Rule :=\s+\.rule \.(\S+) ", s, re.M):
        n, u = m.group(1), m.group(2) or ""
        for a, suf in (("nonAtomic", ""), ("compound", "'")):
            out.append(f"@[kids_simp] theorem kids_{n}{suf}{u} : Kids skip K {n} .{a} ts ↔")
            out.append(f"    ∃ t, Tok skip K {n} .{a} t ∧ ts = [t] := Iff.rfl")
            out.append("")
    for m in re.finditer(r"^def (NL|COMMENT|WHITESPACE) : Expr Rule", s, re.M):
        n = m.group(1)
        for a, suf in (("nonAtomic", ""), ("compound", "'")):
            out.append(f"@[kids_simp] theorem kids_{n}{suf} : Kids skip K {n} .{a} ts ↔ ts = [] := kids_mute_iff rfl")
            out.append("")
    out.append(f"end Verif.Peg.{g}")
    open(os.path.join(base, "Tokens", g + ".lean"), "w").write("\n".join(out) + "\n")
