#!/usr/bin/env python3
"""Generate Verif/Model/Selmaho.lean and Verif/Model/ClassifyTable.lean from /repo/src/lex/selmaho."""
import re
R='/repo/src/lex/selmaho/'
OUT='/verif/lean/Verif/Model/'
mod=open(R+'mod.rs').read().split('\n')
start=next(i for i,l in enumerate(mod) if l.startswith('pub enum Selmaho'))
end=next(i for i in range(start,len(mod)) if mod[i]=='}')
variants=[]
for i in range(start+1,end):
    l=mod[i].split('//')[0].strip()
    if not l: continue
    m=re.fullmatch(r'([A-Za-z]+),',l); assert m,l
    variants.append((m.group(1),i+1))
fe=next(i for i,l in enumerate(mod) if 'fn is_fundamentally_experimental' in l)
txt='\n'.join(mod[fe:])
m=re.search(r'match self \{(.*?)=> true,(.*?)=> false,',txt,re.S)
exp=re.findall(r'Self::(\w+)',m.group(1)); non=re.findall(r'Self::(\w+)',m.group(2))
assert sorted(exp+non)==sorted(v for v,_ in variants)
disp=open(R+'display.rs').read()
ast=disp.index('pub fn as_repr'); al=disp[:ast].count('\n')+1
reprs=re.findall(r'Self::(\w+) => "([^"]*)"',disp)
assert sorted(a for a,_ in reprs)==sorted(v for v,_ in variants)
reprs=dict(reprs)
nm=lambda v:'.'+v[0].lower()+v[1:] if False else '.'+v
KW=set()
o=[]
o.append('''import Verif.Model.Prim

/-!
# `src/lex/selmaho/mod.rs` and `src/lex/selmaho/display.rs`

Generated by `tools/gen_selmaho.py` from the text of those files.
-/

namespace Sneturfahi

/-- `Selmaho`, `src/lex/selmaho/mod.rs:%d-%d`. -/
inductive Selmaho where'''%(start+1,end+1))
for v,_ in variants: o.append('  | '+v)
o.append('deriving DecidableEq, Repr\n')
o.append('/-- Every variant, in declaration order. -/\ndef Selmaho.all : List Selmaho :=\n  ['+', '.join(nm(v) for v,_ in variants)+']\n')
o.append('/-- `Selmaho::is_fundamentally_experimental`, `src/lex/selmaho/mod.rs:%d`: the arms answering `true`.\nThe other arm lists all the other variants. -/\ndef Selmaho.isFundamentallyExperimental : Selmaho → Bool'%(fe+1))
for v in exp: o.append('  | %s => true'%nm(v))
o.append('  | _ => false\n')
o.append('/-- `Selmaho::as_repr` (and `Display`), `src/lex/selmaho/display.rs:%d`. -/\ndef Selmaho.asRepr : Selmaho → List Char'%al)
for v,_ in variants: o.append('  | %s => c!"%s"'%(nm(v),reprs[v]))
o.append('\nend Sneturfahi')
def wrap(s):
    out=[]
    for line in s.split('\n'):
        while len(line)>100 and ', ' in line[:100]:
            k=line.rindex(', ',0,100); out.append(line[:k+1]); line='   '+line[k+1:]
        out.append(line)
    return '\n'.join(out)
open(OUT+'Selmaho.lean','w').write(wrap('\n'.join(o))+'\n')

# ---- classification table
src=open(R+'classify.rs').read()
const=re.search(r'const CUHUHU_ETC: &str = "([^"]*)"',src).group(1)
a=src.index('match direct_cmavo_check {'); b=src.index('_ => Self::classify_generally(word)')
body=src[a+len('match direct_cmavo_check {'):b]
base=src[:a].count('\n')+1
def strip_comments(t): return re.sub(r'//[^\n]*',lambda m:' '*len(m.group(0)),t)
body=strip_comments(body)
pos=0; arms=[]
pat=re.compile(r'\s*((?:(?:"[^"]*"|CUHUHU_ETC)\s*\|?\s*)+|word if [^=]*?== \'y\'\))\s*=>\s*(\{\s*)?(experimental!\()?Self::(\w+)\)?\s*(\})?\s*,?')
while body[pos:].strip():
    m=pat.match(body,pos); assert m,body[pos:pos+200]
    line=base+body[:m.start(1)].count('\n')
    if m.group(1).startswith('word if'):
        assert not m.group(3)
        arms.append(('guard',None,m.group(4),False,line))
    else:
        ws=[w[1:-1] if w[0]=='"' else const for w in re.findall(r'"[^"]*"|CUHUHU_ETC',m.group(1))]
        arms.append(('lit',ws,m.group(4),bool(m.group(3)),line))
    pos=m.end()
gi=[i for i,x in enumerate(arms) if x[0]=='guard']; assert len(gi)==1; gi=gi[0]
assert arms[gi][2]=='Y'
nlit=len(re.findall(r'"[^"]*"|CUHUHU_ETC',body))
assert nlit==sum(len(x[1]) for x in arms if x[0]=='lit'),(nlit)
def fmt(arms,name,doc):
    o=['/-- %s -/\ndef %s : List Arm := ['%(doc,name)]
    for k,(kind,ws,s,e,line) in enumerate(arms):
        o.append('  -- src/lex/selmaho/classify.rs:%d'%line)
        o.append('  ⟨['+', '.join('c!"%s"'%w for w in ws)+'], .%s, %s⟩%s'%(s,'true' if e else 'false',',' if k<len(arms)-1 else ''))
    o.append(']\n'); return o
o=['''import Verif.Model.Selmaho

/-!
# The cmavo table of `src/lex/selmaho/classify.rs`

Generated by `tools/gen_selmaho.py` from the big `match` of `Selmaho::classify`
(`src/lex/selmaho/classify.rs:%d-%d`); one `Arm` per arm, in the order of the source.
-/

namespace Sneturfahi

/-- One arm `"w1" | "w2" | .. => Self::S` or `.. => experimental!(Self::S)`. -/
structure Arm where
  words : List (List Char)
  selmaho : Selmaho
  experimental : Bool
deriving DecidableEq, Repr
'''%(base,src[:b].count('\n')+1)]
o+=fmt(arms[:gi],'armsBeforeY','The arms before the guard arm `word if .. all y => Self::Y` (`src/lex/selmaho/classify.rs:%d`).'%arms[gi][4])
o+=fmt(arms[gi+1:],'armsAfterY','The arms after it.')
o.append('end Sneturfahi')
open(OUT+'ClassifyTable.lean','w').write(wrap('\n'.join(o))+'\n')
print(len(variants),len(arms),nlit)
