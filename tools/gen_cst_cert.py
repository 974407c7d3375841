#!/usr/bin/env python3
"""Compute the well-formedness certificate (consuming rules, ranks) of Verif/Model/CstRules.lean."""
import re
src=open('/verif/lean/Verif/Model/CstRules.lean').read()
names=open('/verif/lean/Verif/Model/CstNames.lean').read()
def tok(s): return re.findall(r"[()\[\],]|\.?\w+",s)
AR={'eps':0,'raw':1,'any':1,'call':1,'seq':2,'alt':2,'opt':1,'many0':1,'many1':1,'manyTill':2,'not':1,'cut':1,'mustConsume':2,'postCond':2,'wrap':2}
defs={}
for m in re.finditer(r'^def (g\w+)(?: \(([\w ]+) : Gr\))? : Gr :=\n  (.*)$',src,re.M):
    defs[m.group(1)]=((m.group(2) or '').split(),m.group(3))
def parse(s):
    t=tok(s); i=0
    def app():
        nonlocal i
        l=[]
        while i<len(t) and t[i] not in(')',']',','):
            x=t[i]; i+=1
            if x=='(':
                l.append(app()); assert t[i]==')'; i+=1
            elif x=='[':
                k=[]
                while t[i]!=']':
                    k.append(app())
                    if t[i]==',': i+=1
                i+=1; l.append(['list']+k)
            else: l.append(x)
        return l
    r=app(); assert i==len(t),s; return r
def expand(e,env):
    if isinstance(e,list) and len(e)==1: e=e[0]
    if isinstance(e,str):
        if e in env: return env[e]
        if e in defs: return expand(parse(defs[e][1]),{})
        if e=='.eps': return ('eps',)
        raise Exception(e)
    h=e[0]
    if h in defs:
        ps,b=defs[h]; assert len(ps)==len(e)-1,(h,e)
        return expand(parse(b),dict(zip(ps,[expand(x,env) for x in e[1:]])))
    k=h[1:]; a=e[1:]; assert len(a)==AR[k],(k,a)
    if k in('raw','any'): return (k,a[0])
    if k=='call':
        x=a[0]
        if isinstance(x,list): assert x[0]=='.word'; return ('call',('word',x[1][1:]))
        return ('call',x[1:])
    if k in('mustConsume','postCond','wrap'): return (k,a[0],expand(a[1],env))
    return (k,)+tuple(expand(x,env) for x in a)
G={}
body=src[src.index('def cst '):]
for m in re.finditer(r'^  \| \.(\w+) =>\n    (.*)$',body,re.M): G[m.group(1)]=expand(parse(m.group(2)),{})
wk=dict(re.findall(r'^  \| \.(\w+) => \.(single|noIndicators|raw|bu)$',names,re.M))
wb={}
for m in re.finditer(r'^  \| \.(single|noIndicators|raw|bu|absent) => (.*(?:\n      .*)?)$',src,re.M): wb[m.group(1)]=m.group(2)
sel=re.findall(r'^  \| (\w+)$',open('/verif/lean/Verif/Model/Selmaho.lean').read().split('deriving')[0],re.M)
for s in sel:
    b=wb[wk.get(s,'absent')]
    G[('word',s)]=expand(parse(re.sub(r'\.word s\b','.word .'+s,b).replace('.raw s','.raw .'+s)),{})
cons={k:True for k in G}
def c(e):
    k=e[0]
    if k in('eps','opt','many0','not'): return False
    if k in('raw','any','mustConsume'): return True
    if k=='call': return cons[e[1]]
    if k=='alt': return c(e[1]) and c(e[2])
    if k=='seq': return c(e[1]) or c(e[2])
    if k in('many1','cut'): return c(e[1])
    if k=='manyTill': return c(e[2])
    if k in('postCond','wrap'): return c(e[2])
    raise Exception(e)
# Time and Space consume only because of their post-condition, which says that a field is present; a field is
# present only if it consumed
def fields(e): # fields of a wrap
    return fields(e[1])+fields(e[2]) if e[0]=='seq' else [e]
def c2(e):
    if e[0]=='postCond' and e[1]=='.anyFieldPresent':
        return all(f[0] in('opt','many0') and c(f[1]) for f in fields(e[2][2]))
    return False
_c=c
def c(e):
    k=e[0]
    if k=='postCond' and c2(e): return True
    if k in('eps','opt','many0','not'): return False
    if k in('raw','any','mustConsume'): return True
    if k=='call': return cons[e[1]]
    if k=='alt': return c(e[1]) and c(e[2])
    if k=='seq': return c(e[1]) or c(e[2])
    if k in('many1','cut'): return c(e[1])
    if k=='manyTill': return c(e[2])
    if k in('postCond','wrap'): return c(e[2])
    raise Exception(e)
ch=True
while ch:
    ch=False
    for r in G:
        if cons[r] and not c(G[r]): cons[r]=False; ch=True
bad=[]
def heads(e):
    k=e[0]
    if k in('eps','raw','any'): return set()
    if k=='call': return {e[1]}
    if k=='alt': return heads(e[1])|heads(e[2])
    if k=='seq': return heads(e[1])|(set() if c(e[1]) else heads(e[2]))
    if k in('opt','not','cut'): return heads(e[1])
    if k in('many0','many1'):
        if not c(e[1]): bad.append(e)
        return heads(e[1])
    if k=='manyTill':
        if not c(e[1]): bad.append(e)
        return heads(e[1])|heads(e[2])
    return heads(e[2])
rank={}
def rk(r,st=()):
    if r in rank: return rank[r]
    assert r not in st,st+(r,)
    rank[r]=max([rk(x,st+(r,))+1 for x in heads(G[r])],default=0); return rank[r]
if __name__=='__main__':
    for r in G: rk(r)
    print(len(G),max(rank.values()),[r for r in G if not cons[r]],len(bad),bad[:3])
    print([ (r,rank[r]) for r in G if rank[r]>20])
    out=['''import Verif.Proof.CstTotal
import Verif.Model.Cst

/-!
# The productions of the concrete syntax tree are well-formed

The two tables are computed by `tools/gen_cst_cert.py` and checked here by the kernel.
-/

namespace Sneturfahi

/-- Productions that may succeed without consuming anything. -/
def cstConsumes : CRule → Bool''']
    for r in G:
        if not cons[r]: out.append(f'  | .{r} => false')
    out.append('  | _ => true\n')
    out.append('/-- Longest chain of calls at the same position. -/\ndef cstRank : CRule → Nat')
    wr=sorted({rank[r] for r in G if isinstance(r,tuple)})
    for r in G:
        if isinstance(r,str): out.append(f'  | .{r} => {rank[r]}')
    common=max(wr,key=lambda x:sum(1 for r in G if isinstance(r,tuple) and rank[r]==x))
    for r in G:
        if isinstance(r,tuple) and rank[r]!=common: out.append(f'  | .word .{r[1]} => {rank[r]}')
    out.append(f'  | .word _ => {common}\n')
    out.append('''/-- The certificate. -/
def cstWF : CstWF cst where
  cons := cstConsumes
  rank := cstRank
  bound := 32
  cons_ok := by
    intro r; cases r with
    | word s => cases s <;> decide +kernel
    | _ => decide +kernel
  rank_ok := by
    intro r; cases r with
    | word s => cases s <;> decide +kernel
    | _ => decide +kernel
  rep_ok := by
    intro r; cases r with
    | word s => cases s <;> decide +kernel
    | _ => decide +kernel
  rank_lt := by
    intro r; cases r with
    | word s => cases s <;> decide +kernel
    | _ => decide +kernel

end Sneturfahi''')
    open('/verif/lean/Verif/Proof/CstWF.lean','w').write('\n'.join(out)+'\n')
