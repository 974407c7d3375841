#!/usr/bin/env python3
"""Write lean/Verif/Model/Idents.lean from the names in CstNames.lean and Selmaho.lean."""
import re
L='/verif/lean/'
n=open(L+'Verif/Model/CstNames.lean').read()
i=n.index('inductive NodeName'); j=n.index('deriving',i)
names=re.findall(r'^  \| (\w+)$',n[i:j],re.M)
i=n.index('inductive CRule'); j=n.index('deriving',i)
rules=re.findall(r'^  \| (\w+)$',n[i:j],re.M)
sel=open(L+'Verif/Model/Selmaho.lean').read(); i=sel.index('inductive Selmaho'); j=sel.index('deriving',i)
sm=re.findall(r'^  \| (\w+)$',sel[i:j],re.M)
def lst(l,pre='  ['):
    o='';line=pre
    for k,x in enumerate(l):
        t='.'+x+(', ' if k<len(l)-1 else ']')
        if len(line)+len(t)>110: o+=line.rstrip()+'\n'; line='   '
        line+=t
    return o+line
o=['import Verif.Model.CstNames','','/-!','# The Rust identifiers of the names of the model','','Generated by `tools/gen_idents.py`.','-/','','namespace Sneturfahi','']
o+=['/-- The identifiers of the variants of `Selmaho`, `src/lex/selmaho/mod.rs`. -/','def Selmaho.ident : Selmaho → List Char']+['  | .%s => c!"%s"'%(x,x) for x in sm]+['']
o+=['/-- The types of `src/parse/cst/rules/*.rs` without type parameters, other than those of `token_types!` and `Bu`. -/','def CRule.types : List CRule :=',lst(rules),'']
o+=['/-- Their identifiers, and those of `token_types!`. -/','def CRule.ident : CRule → List Char']+['  | .%s => c!"%s"'%(x,x) for x in rules]+['  | .word s => s.ident','']
o+=['/-- The nodes, other than the words. -/','def NodeName.types : List NodeName :=',lst(names),'','end Sneturfahi','']
ru=open(L+'Verif/Model/Rules.lean').read(); i=ru.index('inductive Rule'); j=ru.index('deriving',i)
rn=re.findall(r'^  \| (\w+)$',ru[i:j],re.M)
r=['import Verif.Model.Rules','','/-!','# The Rust identifiers of the rules','','Generated by `tools/gen_idents.py`.','-/','','namespace Sneturfahi','',
'/-- The names of the rule functions of `src/rules.rs`. -/','def Rule.ident : Rule → List Char']+['  | .%s => c!"%s"'%(x,x) for x in rn]+['','end Sneturfahi','']
open(L+'Verif/Model/RuleIdents.lean','w').write('\n'.join(r))
open(L+'Verif/Model/Idents.lean','w').write('\n'.join(o))
