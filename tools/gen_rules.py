#!/usr/bin/env python3
"""Mechanical translation of the rule functions of /repo/src/rules.rs into lean/Verif/Model/Rules.lean.

The rule bodies are written in a tiny DSL (or!, seq!, repeat, not, peek, opt, one_of, .and_not, .and_peek,
not!(..); statements, closures `|input| e(input)`); this script parses exactly that DSL and refuses anything else.
"""
import re, sys
SRC = sys.argv[1] if len(sys.argv) > 1 else "/repo/src/rules.rs"
OUT = sys.argv[2] if len(sys.argv) > 2 else "/verif/lean/Verif/Model/Rules.lean"
text = open(SRC).read()
lines = text.split("\n")

class P:
    def __init__(self, s):
        s = re.sub(r"//[^\n]*", "", s)
        self.t = re.findall(r'"[^"]*"|[A-Za-z_][A-Za-z_0-9]*!?|\d+|=>|[\[\](),.|;]', s)
        leftover = re.sub(r'"[^"]*"|[A-Za-z_][A-Za-z_0-9]*!?|\d+|=>|[\[\](),.|;\s]', "", s)
        assert leftover == "", leftover
        self.i = 0
    def peek(self, k=0): return self.t[self.i+k] if self.i+k < len(self.t) else None
    def eat(self, x=None):
        r = self.t[self.i]
        assert x is None or r == x, (r, x, self.t[max(0,self.i-5):self.i+5])
        self.i += 1
        return r
    def lst(self, close):
        out = []
        while self.peek() != close:
            out.append(self.parser())
            if self.peek() == ",": self.eat(",")
        self.eat(close)
        return out
    # a *parser* (function value)
    def parser(self):
        t = self.eat()
        if t == "or!":
            self.eat("[")
            if self.peek() == "longest":
                self.eat(); self.eat("=>")
                return ("longest", self.lst("]"))
            return ("or", self.lst("]"))
        if t == "seq!":
            self.eat("["); return ("seq", self.lst("]"))
        if t == "repeat":
            self.eat("("); n = int(self.eat()); self.eat(",")
            e = self.parser()
            if self.peek() == ",": self.eat(",")
            self.eat(")"); return ("rep", n, e)
        if t in ("not", "peek", "opt") :
            self.eat("("); e = self.parser(); self.eat(")"); return (t, e)
        if t == "one_of":
            self.eat("("); s = self.eat(); self.eat(")"); return ("one_of", s)
        if t == "|":
            self.eat("input"); self.eat("|")
            return self.applied()
        assert re.match(r"^[a-z_]+$", t), t
        return ("call", t)
    # parser(input).and_not(..)...
    def applied(self):
        e = self.parser()
        self.eat("("); self.eat("input"); self.eat(")")
        while self.peek() == ".":
            self.eat("."); m = self.eat(); assert m in ("and_not", "and_peek"), m
            self.eat("("); p = self.parser(); self.eat(")")
            e = (m, e, p)
        return e
    def body(self):
        nots = []
        while self.peek() == "not!":
            self.eat(); self.eat("("); r = self.eat(); self.eat("("); self.eat("input"); self.eat(")"); self.eat(")"); self.eat(";")
            nots.append(r)
        e = self.applied()
        assert self.i == len(self.t), self.t[self.i:]
        for r in reversed(nots): e = ("guard", ("call", r), e)
        return e

SPECIAL = {"null", "eof"}
def lean(e):
    k = e[0]
    if k == "call": return ".null" if e[1] == "null" else ".eof" if e[1] == "eof" else f"§.{e[1]}"
    if k == "one_of": return f"(.oneOf c!{e[1]})"
    if k == "or": return "(" + " ∣ ".join(map(lean, e[1])) + ")" if len(e[1]) > 1 else lean(e[1][0])
    if k == "seq": return "(" + " ⬝ ".join(map(lean, e[1])) + ")" if len(e[1]) > 1 else lean(e[1][0])
    if k == "longest":
        r = lean(e[1][-1])
        for x in reversed(e[1][:-1]): r = f"(.longest {lean(x)} {r})"
        return r
    if k == "rep": return f"(.rep {e[1]} {lean(e[2])})"
    if k == "not": return f"(.not {lean(e[1])})"
    if k == "peek": return f"(.peek {lean(e[1])})"
    if k == "opt": return f"(.opt {lean(e[1])})"
    if k == "and_not": return f"(.andNot {lean(e[1])} {lean(e[2])})"
    if k == "and_peek": return f"(.andPeek {lean(e[1])} {lean(e[2])})"
    if k == "guard": return f"(.guardNot {lean(e[1])} {lean(e[2])})"
    raise Exception(k)

rules = []  # (name, line range, exp)
SKIP = {"null", "not", "peek", "opt", "eof", "one_of", "_slice_until_sub", "repeat", "eat_commas",
        "test_vowel", "test_diphthong", "test_yhy_cmavo"}
i = 0
while i < len(lines):
    l = lines[i]
    m = re.match(r'^consonant_rule!\((\w+), ("[^"]*")((?:, \w+)*)\);', l)
    if m:
        name = m.group(1); nots = re.findall(r"\w+", m.group(3))
        # consonant_rule!, src/rules.rs:213-219
        e = ("and_not", ("one_of", m.group(2)), ("or", [("call", x) for x in ["h", "glide", name] + nots]))
        rules.append((name, f"{i+1} (macro 213-219)", e)); i += 1; continue
    m = re.match(r'^vowel_rule!\((\w+), ("[^"]*")\);', l)
    if m:
        rules.append((m.group(1), f"{i+1} (macro 269-275)", ("one_of", m.group(2)))); i += 1; continue
    m = re.match(r'^group!\((\w+): \[([^\]]*)\]\);', l)
    if m:
        rules.append((m.group(1), f"{i+1} (macro 119-125)", ("or", [("call", x) for x in re.findall(r"\w+", m.group(2))]))); i += 1; continue
    m = re.match(r"^(?:pub )?fn (\w+)\(", l)
    if m and m.group(1) not in SKIP:
        assert re.match(r"^(?:pub )?fn \w+\(input: &str\) -> ParseResult<'_> \{$", l), l
        j = i + 1
        while lines[j] != "}": j += 1
        rules.append((m.group(1), f"{i+1}-{j+1}", P("\n".join(lines[i+1:j])).body())); i = j + 1; continue
    i += 1

names = [r[0] for r in rules]
assert len(set(names)) == len(names)
def calls(e):
    if isinstance(e, tuple) and e and e[0] == "call": yield e[1]
    elif isinstance(e, (tuple, list)):
        for x in e: yield from calls(x)
for n, _, e in rules:
    for c in calls(e): assert c in names or c in SPECIAL, (n, c)

o = []
o.append('''import Verif.Model.Peg

/-!
# The rules of `src/rules.rs`

Generated by `tools/gen_rules.py` from the text of `src/rules.rs`; every rule function is translated
construct by construct (see `Verif.Model.Peg` for the meaning of the constructs).  The attribute
`#[debug_rule]` (`macros/src/lib.rs:79-102`) only adds logging around a body and is modelled in
`Verif.Model.Trace`, not here.
-/

namespace Sneturfahi

/-- The rule functions of `src/rules.rs`. -/
inductive Rule where''')
for n, ln, e in rules: o.append(f"  /-- `src/rules.rs:{ln}` -/\n  | {n}")
o.append("deriving DecidableEq, Repr\n")
o.append('''/-- Call of a rule. -/
local prefix:max "§" => Exp.call
/-- `or![..]` -/
local infixr:55 " ∣ " => Exp.alt
/-- `seq![..]` -/
local infixr:60 " ⬝ " => Exp.seq

/-- The body of every rule function of `src/rules.rs` (line numbers at each rule). -/
def grammar : Rule → Exp Rule''')
for n, ln, e in rules:
    o.append(f"  -- src/rules.rs:{ln}")
    o.append(f"  | .{n} => {lean(e)}")
o.append('''
/-- All rules. -/
def Rule.all : List Rule := [''' )
o.append("  " + ", ".join("." + n for n in names) + "]")
o.append("\nend Sneturfahi")
open(OUT, "w").write("\n".join(o) + "\n")
print(len(rules), "rules")
