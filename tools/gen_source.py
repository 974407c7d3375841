#!/usr/bin/env python3
"""Write lean/Verif/Model/Source.lean, RulesText.lean and SelmahoText.lean: the text of src/parse/cst/rules/*.rs, of
src/rules.rs and of src/lex/selmaho/*.rs, character by character."""
FILES=[
 ('src/parse/cst/rules/',[('mod.rs','modRs'),('helpers.rs','helpersRs'),('connectives.rs','connectivesRs'),('mekso.rs','meksoRs'),('selmaho.rs','selmahoRs')],
  'Source','the five files, unchanged, as lists of lines.  What they mean is the\nbusiness of `Model/Rust.lean` and `Model/Derive.lean`.'),
 ('src/',[('rules.rs','rulesRs')],
  'RulesText','the file, unchanged, as lists of lines.  What it means is the\nbusiness of `Model/Rust.lean` and `Model/RuleText.lean`.'),
 ('src/lex/selmaho/',[('mod.rs','selmahoModRs'),('display.rs','displayRs'),('classify.rs','classifyRs')],
  'SelmahoText','the three files, unchanged, as lists of lines.  What they mean is the\nbusiness of `Model/Rust.lean` and `Model/TableText.lean`.')]
def q(s):
    out=''
    for ch in s:
        if ch=='\\': out+='\\\\'
        elif ch=='"': out+='\\"'
        elif ch=='\t': out+='\\t'
        else:
            assert 32<=ord(ch)<127,repr(ch); out+=ch
    return 'c!"%s"'%out
N=40
for d,files,out,doc in FILES:
    o=['import Verif.Model.Prim','','/-!','# The text of `%s`'%(d+('*.rs' if len(files)>1 else files[0][0])),'','Generated by `tools/gen_source.py`: '+doc,'-/','','namespace Sneturfahi.Source','']
    for f,n in files:
        text=open('/repo/'+d+f).read(); assert text.endswith('\n')
        ls=text[:-1].split('\n')
        parts=[]
        for k in range(0,len(ls),N):
            p='%s%d'%(n,k//N); parts.append(p)
            o+=['/-- `%s%s:%d-%d` -/'%(d,f,k+1,min(k+N,len(ls))),'def %s : List (List Char) :='%p]
            o+=['  [%s]'%(',\n   '.join(q(l) for l in ls[k:k+N])),'']
        o+=['/-- `%s%s` -/'%(d,f),'def %s : List (List (List Char)) :='%n,'  [%s]'%', '.join(parts),'']
    o+=['end Sneturfahi.Source','']
    open('/verif/lean/Verif/Model/%s.lean'%out,'w').write('\n'.join(o))
