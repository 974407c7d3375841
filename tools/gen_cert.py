#!/usr/bin/env python3
"""Compute the well-formedness certificate (cons, rank) of the rule table in Verif/Model/Rules.lean."""
import re,sys
src=open('/verif/lean/Verif/Model/Rules.lean').read()
body=src[src.index('def grammar'):]
rules={}
for m in re.finditer(r'^  \| \.(\w+) => (.*?)(?=^  --|^  \||^\s*$|\Z)',body,re.S|re.M):
    rules[m.group(1)]=m.group(2)
# tokenise & parse
def tok(s): return re.findall(r"c!\"(?:[^\"\\]|\\.)*\"|§\.\w+|\.\w+|[()∣⬝]|\d+",s)
def parse(s):
    t=tok(s); i=0
    def alt():
        nonlocal i
        a=seq()
        if i<len(t) and t[i]=='∣': i+=1; return ('alt',a,alt())
        return a
    def seq():
        nonlocal i
        a=app()
        if i<len(t) and t[i]=='⬝': i+=1; return ('seq',a,seq())
        return a
    def app():
        nonlocal i
        x=t[i]
        if x.startswith('.'):
            i+=1; args=[]
            n={'null':0,'eof':0,'oneOf':1,'call':1,'not':1,'peek':1,'opt':1,'alt':2,'longest':2,'seq':2,'rep':2,'andPeek':2,'andNot':2,'guardNot':2}[x[1:]]
            for _ in range(n): args.append(atom())
            return (x[1:],)+tuple(args)
        return atom()
    def atom():
        nonlocal i
        x=t[i]; i+=1
        if x=='(':
            a=alt(); assert t[i]==')',t[i:]; i+=1; return a
        if x.startswith('§'): return ('call',x[2:])
        if x.startswith('c!'): return x
        if x.isdigit(): return int(x)
        if x in('.null','.eof'): return (x[1:],)
        raise Exception((x,t))
    r=alt(); assert i==len(t),(t[i:],s); return r
G={k:parse(v) for k,v in rules.items()}
if __name__=='__main__':
    cons={k:True for k in G}
    def cE(e):
        k=e[0]
        if k in('null','eof','not','peek','opt'): return False
        if k=='oneOf': return True
        if k=='call': return cons[e[1]]
        if k in('alt','longest'): return cE(e[1]) and cE(e[2])
        if k=='seq': return cE(e[1]) or cE(e[2])
        if k=='rep': return e[1]>0 and cE(e[2])
        if k in('andPeek','andNot'): return cE(e[1])
        if k=='guardNot': return cE(e[2])
    ch=True
    while ch:
        ch=False
        for r in G:
            if cons[r] and not cE(G[r]): cons[r]=False; ch=True
    def heads(e):
        k=e[0]
        if k in('null','eof','oneOf'): return set()
        if k=='call': return {e[1]}
        if k in('not','peek','opt'): return heads(e[1])
        if k in('alt','longest','guardNot'): return heads(e[1])|heads(e[2])
        if k in('seq','andPeek','andNot'): return heads(e[1])|(set() if cE(e[1]) else heads(e[2]))
        if k=='rep':
            assert cE(e[2]),e
            return heads(e[2])
    rank={}
    def rk(r,st=()):
        if r in rank: return rank[r]
        assert r not in st,st
        rank[r]=max([rk(x,st+(r,))+1 for x in heads(G[r])],default=0); return rank[r]
    for r in G: rk(r)
    print(len(G),max(rank.values()),[r for r in G if not cons[r]])
    o=['''import Verif.Proof.PegTotal
import Verif.Model.Decompose

/-!
# The rules of `src/rules.rs` are well-formed

The two tables are computed by `tools/gen_cert.py` and checked here by the kernel.
-/

namespace Sneturfahi

/-- Rules that may succeed without consuming anything. -/
def nonConsuming : List Rule := [%s]

/-- Longest chain of calls at the same position. -/
def ruleRank : Rule → Nat'''%', '.join('.'+r for r in G if not cons[r])]
    for r in G: o.append('  | .%s => %d'%(r,rank[r]))
    o.append('''
def ruleCons (r' : Rule) : Bool := !nonConsuming.contains r'

/-- The certificate of the actual rules. -/
def grammarWF : WF grammar where
  cons := ruleCons
  rank := ruleRank
  bound := 128
  cons_ok := by intro r'; cases r' <;> decide +kernel
  rank_ok := by intro r'; cases r' <;> decide +kernel
  rep_ok := by intro r'; cases r' <;> decide +kernel
  rank_lt := by intro r'; cases r' <;> decide +kernel

/-- A rule as a pure function on texts: what `runRule` returns, without addresses. -/
def parseRule (rule : Rule) (cs : List Char) : Res :=
  match runRule rule ⟨0, cs⟩ with
  | .val (some (m, rest)) => some (m.chars, rest.chars)
  | _ => none

theorem runRule_good (rule : Rule) (s : Str) : Good grammar (runRule rule) (.call rule) s := by
  have hf : grammarWF.bound * s.chars.length + grammarWF.rank rule < ruleFuel s := by
    have h := grammarWF.rank_lt rule
    have hb : grammarWF.bound = 128 := rfl
    rw [hb] at h ⊢
    unfold ruleFuel
    omega
  obtain ⟨res, h1, h2⟩ := evalRule_good grammarWF (ruleFuel s) rule s hf
  refine ⟨res, ?_, h2⟩
  rw [runRule, h1]

/-- The pure result is derivable, and it is the only one that is. -/
theorem parseRule_derives (rule : Rule) (cs : List Char) :
    Derives grammar (.call rule) cs (parseRule rule cs) := by
  obtain ⟨res, h1, h2⟩ := runRule_good rule ⟨0, cs⟩
  have : parseRule rule cs = res := by
    simp only [parseRule, h1]
    cases res with
    | none => rfl
    | some x => rfl
  rw [this]; exact h2

theorem derives_iff {rule : Rule} {cs : List Char} {res : Res} :
    Derives grammar (.call rule) cs res ↔ parseRule rule cs = res :=
  ⟨fun h => (parseRule_derives rule cs).det _ h, fun h => h ▸ parseRule_derives rule cs⟩

/-- Running a rule anywhere in memory returns, without panic, the pure result at the right addresses. -/
theorem runRule_eq (rule : Rule) (s : Str) :
    runRule rule s = .val (Res.at s.ptr (parseRule rule s.chars)) := by
  obtain ⟨res, h1, h2⟩ := runRule_good rule s
  rw [h1, derives_iff.mp h2]

end Sneturfahi''')
    open('/verif/lean/Verif/Proof/RulesTotal.lean','w').write('\n'.join(o)+'\n')
