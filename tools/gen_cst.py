#!/usr/bin/env python3
"""Translate src/parse/cst/rules/*.rs into Verif/Model/CstNames.lean and Verif/Model/CstRules.lean."""
import re,sys
D='/repo/src/parse/cst/rules/'
FILES=['mod.rs','helpers.rs','connectives.rs','mekso.rs']
TOK=re.compile(r"""(?P<ws>\s+)|(?P<com>//[^\n]*|/\*.*?\*/)|(?P<str>"(?:[^"\\]|\\.)*")|(?P<lt>'[a-z_]\w*)|(?P<id>[A-Za-z_]\w*|\d+)|(?P<pp>->|=>|::|\|\||&&|.)""",re.S)
def lex(src):
    out=[];pos=0;line=1
    while pos<len(src):
        m=TOK.match(src,pos); k=m.lastgroup; t=m.group()
        if k not in('ws','com'): out.append((k,t,line))
        line+=t.count('\n'); pos=m.end()
    return out
# --- types
def parse_type(ts,i):
    k,t,_=ts[i]
    if t=='&':
        i+=1
        if ts[i][0]=='lt': i+=1
        return parse_type(ts,i)
    if t=='[':
        a,i=parse_type(ts,i+1); assert ts[i][1]==']'; return ('slice',a),i+1
    if t=='(':
        i+=1; l=[]
        while ts[i][1]!=')':
            a,i=parse_type(ts,i); l.append(a)
            if ts[i][1]==',': i+=1
        return ('tuple',l),i+1
    assert k=='id',ts[i]
    i+=1; args=[]
    if i<len(ts) and ts[i][1]=='<':
        i+=1
        while ts[i][1]!='>':
            if ts[i][0]=='lt': i+=1
            else:
                a,i=parse_type(ts,i); args.append(a)
            if ts[i][1]==',': i+=1
        i+=1
    return ('name',t,args),i
def type_of_str(s):
    ts=lex(s); a,i=parse_type(ts,0); assert i==len(ts),s; return a
# --- attributes
def parse_attr(ts,i):
    """at '#': returns (name, arg tokens), next"""
    assert ts[i+1][1]=='['; j=i+2; d=1; inner=[]
    while True:
        if ts[j][1]=='[': d+=1
        if ts[j][1]==']':
            d-=1
            if d==0: break
        inner.append(ts[j]); j+=1
    return inner,j+1
def attrs_of(l):
    r={'not':[],'with':None,'cut':False,'must_consume':False,'postcond':[],'not_after':[],'passthrough':False,'derive':[]}
    for a in l:
        n=a[0][1]
        if n=='derive': r['derive']=[x[1] for x in a if x[0]=='id'][1:]
        elif n=='cut': r['cut']=True
        elif n=='tree_node':
            assert a[2][1]=='passthrough_child',a; r['passthrough']=True
        elif n in('repr','allow','test','doc'): pass
        elif n=='parse':
            b=a[2:-1]; i=0
            while i<len(b):
                key=b[i][1]
                if key=='must_consume': r['must_consume']=True; i+=1
                elif key=='postcond' and b[i+1][1]=='(':
                    r['postcond'].append(b[i+2][1][1:-1]); assert b[i+3][1]==')'; i+=4
                else:
                    assert b[i+1][1]=='=',(b)
                    v=b[i+2][1][1:-1]
                    if key=='not': r['not'].append(type_of_str(v))
                    elif key=='with': r['with']=v
                    elif key=='postcond': r['postcond'].append(v)
                    elif key=='not_after': r['not_after'].append(type_of_str(v))
                    else: raise Exception(key)
                    i+=3
                if i<len(b): assert b[i][1]==','; i+=1
        else: raise Exception(a)
    return r
def parse_fields(ts,i):
    """at '(' or '{'"""
    close={'(':')','{':'}'}[ts[i][1]]; named=close=='}'; i+=1; fs=[]
    while ts[i][1]!=close:
        at=[]
        while ts[i][1]=='#':
            a,i=parse_attr(ts,i); at.append(a)
        if ts[i][1]=='pub':
            i+=1
        nm=None
        if named: nm=ts[i][1]; assert ts[i+1][1]==':'; i+=2
        ty,i=parse_type(ts,i); fs.append((nm,ty,attrs_of(at)))
        if ts[i][1]==',': i+=1
    return fs,i+1
items={} # name -> dict
def scan(fn):
    src=open(D+fn).read(); ts=lex(src); i=0; at=[]; startline=None
    while i<len(ts):
        k,t,ln=ts[i]
        if t=='#' and i+1<len(ts) and ts[i+1][1]=='!':
            _,i=parse_attr(ts[:i]+ts[i+1:],i); i+=1; continue
        if t=='#':
            if not at: startline=ln
            a,i=parse_attr(ts,i); at.append(a); continue
        if t=='pub' :
            i+=1
            if ts[i][1]=='(':
                while ts[i][1]!=')': i+=1
                i+=1
            continue
        if t in('struct','enum','type'):
            name=ts[i+1][1]; j=i+2; gens=[]
            if ts[j][1]=='<':
                j+=1
                while ts[j][1]!='>':
                    if ts[j][0]=='id': gens.append(ts[j][1])
                    j+=1
                j+=1
            s0=startline if at else ln
            if t=='type':
                assert ts[j][1]=='='; ty,j=parse_type(ts,j+1); assert ts[j][1]==';',name
                items[name]=dict(kind='type',ty=ty,gens=gens,file=fn,l0=s0,l1=ts[j][2]); j+=1
            else:
                A=attrs_of(at)
                if t=='struct' and 'Parse' not in A['derive'] and name!='LohuSumti':
                    print('skip',name)
                    while ts[j][1] not in ('{','(',';'): j+=1
                    d=0
                    while True:
                        if ts[j][1] in '({': d+=1
                        if ts[j][1] in ')}':
                            d-=1
                            if d==0: break
                        j+=1
                    j+=1
                elif t=='struct':
                    fs,j2=parse_fields(ts,j)
                    l1=ts[j2-1][2]
                    if j2<len(ts) and ts[j2][1]==';': l1=ts[j2][2]; j2+=1
                    if 'Parse' in A['derive']: items[name]=dict(kind='struct',fields=fs,attrs=A,gens=gens,file=fn,l0=s0,l1=l1)
                    elif name=='LohuSumti': items[name]=dict(kind='lohu',fields=fs,attrs=A,gens=gens,file=fn,l0=s0,l1=l1)
                    else: print('skip',name)
                    j=j2
                else:
                    assert ts[j][1]=='{'; j+=1; vs=[]
                    while ts[j][1]!='}':
                        va=[]
                        while ts[j][1]=='#':
                            a,j=parse_attr(ts,j); va.append(a)
                        vn=ts[j][1]; fs,j=parse_fields(ts,j+1); vs.append((vn,fs,attrs_of(va)))
                        if ts[j][1]==',': j+=1
                    items[name]=dict(kind='enum',vs=vs,attrs=A,gens=gens,file=fn,l0=s0,l1=ts[j][2]); j+=1
            i=j; at=[]; continue
        # anything else: skip balanced if '{'
        at=[]
        if t=='_ks':
            # _ks![Ek(A), ...]
            if ts[i+1][1]=='!' and ts[i+2][1]=='[':
                j=i+3
                while ts[j][1]!=']':
                    nm=ts[j][1]; inner=ts[j+2][1]; j+=4
                    if ts[j][1]==',': j+=1
                    items[nm]=dict(kind='struct',fields=[(None,('name','NaSeTNai',[('name',inner,[])]),attrs_of([]))],attrs=attrs_of([]),gens=[],file=fn,l0=12,l1=22)
                i=j+1; continue
        if t=='{':
            d=0
            while True:
                if ts[i][1]=='{': d+=1
                if ts[i][1]=='}':
                    d-=1
                    if d==0: break
                i+=1
        i+=1
for f in FILES: scan(f)
# aliases from `use`: Mekso, MeksoOperator
ALIAS={'Mekso':'Expression','MeksoOperator':'Operator'}
# selmaho token types
src=open(D+'selmaho.rs').read()
m=re.search(r'^token_types! \{\n(.*?)^\}',src,re.S|re.M)
words={}
ln0=src[:m.start(1)].count('\n')+1
for off,l in enumerate(m.group(1).split('\n')):
    mm=re.match(r'\s*(?:#\[(\w+)\] )?(\w+),',l)
    if mm: words[mm.group(2)]=(mm.group(1) or 'single',ln0+off)
words['Bu']=('bu',src[:src.index('pub struct Bu {')].count('\n'))
rules=[n for n,v in items.items() if v['kind']!='type' and not v['gens']]
generics=[n for n,v in items.items() if v['kind']!='type' and v['gens']]
aliases=[n for n,v in items.items() if v['kind']=='type']
names=[] # (lean, display, passthrough)
for n,v in items.items():
    if v['kind']=='type' or n=='Separated': continue
    if v['kind']=='enum':
        for vn,_,_ in v['vs']: names.append((n+'_'+vn,n+'::'+vn,v['attrs']['passthrough']))
    elif n in('ZoiDelimiter','ZoiText'): pass
    else: names.append((n,n,v['attrs']['passthrough']))
def ty(t,env,self_):
    if t[0]=='slice': raise Exception('slice without with')
    if t[0]=='tuple': return '(.wrap .tuple %s)'%seq([ty(x,env,self_) for x in t[1]])
    n,args=t[1],t[2]
    if n=='Self': return self_
    if n in env: return env[n]
    if n=='Option': return '(.opt %s)'%ty(args[0],env,self_)
    n=ALIAS.get(n,n)
    if n=='Token': return '(.any .token)'
    if n in words: assert not args; return '(.call (.word .%s))'%n
    v=items[n]
    if v['kind']=='type': return 'g%s'%n
    if n in generics: return '(g%s %s)'%(n,' '.join(ty(a,env,self_) for a in args))
    assert not args,(t)
    return '(.call .%s)'%n
def seq(l):
    if not l: return '.eps'
    r=l[-1]
    for x in reversed(l[:-1]): r='(.seq %s %s)'%(x,r)
    return r
def field(f,env,self_,nospan=None):
    nm,t,a=f
    if nospan: x='(.any .%s)'%nospan
    elif a['with']:
        assert t[0]=='slice'; x='(.%s %s)'%(a['with'],ty(t[1],env,self_))
    else: x=ty(t,env,self_)
    if a['cut']: x='(.cut %s)'%x
    return ['(.not %s)'%ty(nn,env,self_) for nn in a['not']]+[x]
def struct(fs,env,self_,shape,must=None):
    l=[]
    for f in fs: l+=field(f,env,self_)
    e=seq(l)
    e='(.wrap %s %s)'%(shape,e)
    if must: e='(.mustConsume .%s %s)'%(must,e)
    return e
PC={}
def body(n):
    v=items[n]; env={g:g[0].lower()+g[1:] for g in v['gens']}
    env={k:w for k,w in env.items()}
    self_='(.call .%s)'%n
    if v['kind']=='lohu':
        return '.wrap (.node .LohuSumti) (.seq (.call (.word .Lohu)) (.cut (.manyTill (.any .token) (.call (.word .Lehu)))))'
    if n in('ZoiDelimiter','ZoiText'): return '.any .%s'%(n[0].lower()+n[1:])
    if v['kind']=='struct':
        e=struct(v['fields'],env,self_,'.sep' if n=='Separated' else '(.node .%s)'%n)
    else:
        e=None
        for vn,fs,a in v['vs']:
            b=struct(fs,env,self_,'(.node .%s_%s)'%(n,vn),('%s_%s'%(n,vn) if a['must_consume'] else None))
            e=b if e is None else '(.alt %s %s)'%(e,b)
    for pc in v['attrs']['postcond']:
        if n=='BuInner':
            l=re.findall(r'Selmaho::(\w+)',pc); e='(.postCond (.selmahoNotIn [%s]) %s)'%(', '.join('.'+x for x in l),e)
        else:
            parts=pc.split('||'); assert len(parts)==len(v['fields'])
            for p,(fn_,_,_) in zip(parts,v['fields']):
                p=p.strip(); p=re.sub(r'^\|\w+\| ','',p)
                assert re.fullmatch(r'!\w+\.%s\.is_empty\(\)|\w+\.%s\.is_some\(\)'%(fn_,fn_),p),p
            e='(.postCond .anyFieldPresent %s)'%e
    for nn in v['attrs']['not_after']:
        e='(.seq %s (.not %s))'%(e,ty(nn,env,self_))
    return e[1:-1] if e.startswith('(') else e
P='src/parse/cst/rules/'
def cite(n):
    v=items[n]; return '`%s%s:%d-%d`'%(P,v['file'],v['l0'],v['l1'])
o=['import Verif.Model.Selmaho','','/-!','# Names of the productions and nodes of the concrete syntax tree','','Generated by `tools/gen_cst.py` from `src/parse/cst/rules/*.rs`.','-/','','namespace Sneturfahi','']
o+=['/-- The names `TreeNode::name` gives (`macros/src/derive_tree_node.rs:227-248`): the name of a struct, or','the name of an enum with the variant.  `word` is the struct of a selmaho (`src/parse/cst/rules/selmaho.rs`). -/','inductive NodeName where']
for l,d,p in names: o.append('  | %s'%l)
o+=['  | word (s : Selmaho)','deriving DecidableEq, Repr','']
o+=['/-- Types with `#[tree_node(passthrough_child)]`, which have no node of their own. -/','def NodeName.passthrough : NodeName → Bool']
for l,d,p in names:
    if p: o.append('  | .%s => true'%l)
o+=['  | _ => false','']
o+=['/-- Non-generic types with a `Parse` implementation. -/','inductive CRule where']
for n in rules: o.append('  /-- %s -/\n  | %s'%(cite(n),n))
o+=['  /-- the types made by `token_types!`, and `Bu`, `src/parse/cst/rules/selmaho.rs:30-437` -/','  | word (s : Selmaho)','deriving DecidableEq, Repr','']
o+=['/-- How a selmaho is declared in `token_types!`, `src/parse/cst/rules/selmaho.rs:219-241`. -/','inductive WordKind where','  | single | noIndicators | raw | bu | absent','deriving DecidableEq, Repr','']
o+=['/-- The list given to `token_types!`, `src/parse/cst/rules/selmaho.rs:243-%d`, and `Bu`.'%(max(l for k,l in words.values() if k!='bu')+1),'`absent`: there is no such type. -/','def wordKind : Selmaho → WordKind']
for w,(k,l) in words.items():
    o.append('  | .%s => .%s'%(w,{'no_indicators':'noIndicators'}.get(k,k)))
o+=['  | _ => .absent','']
def disp(s): return 'c!"%s"'%s
o+=['/-- `TreeNode::name` of a node.  For the structs of `token_types!` the name of the struct is the name of the','`Selmaho` variant; only those with children beside the word itself use it. -/','def NodeName.text (ident : Selmaho → List Char) : NodeName → List Char']
for l,d,p in names: o.append('  | .%s => %s'%(l,disp(d)))
o+=['  | .word s => ident s','','end Sneturfahi','']
open('/verif/lean/Verif/Model/CstNames.lean','w').write('\n'.join(o))
o=['import Verif.Model.CstPeg','','/-!','# The productions of `src/parse/cst/rules/*.rs`','','Generated by `tools/gen_cst.py`.  A struct is the sequence of its fields, an enum the ordered choice of','its variants (`macros/src/derive_parse.rs:117-365`); generic types are functions.','-/','','namespace Sneturfahi','','open Gr','']
order=['Separated','Frees']
done=set()
def emit_generic(n):
    v=items[n]
    params=' '.join(g[0].lower()+g[1:] for g in v['gens'])
    return ['/-- `%s`, %s -/'%(n,cite(n)),'def g%s (%s : Gr) : Gr :='%(n,params),'  %s'%body(n),'']
def deps(t):
    if t[0]=='slice': return deps(t[1])
    if t[0]=='tuple': return set().union(*map(deps,t[1]))
    s={t[1]}
    for a in t[2]: s|=deps(a)
    return s
def item_deps(n):
    v=items[n]
    if v['kind']=='type': return deps(v['ty'])
    fs=v['fields'] if v['kind']=='struct' else [f for _,l,_ in v['vs'] for f in l]
    r=set()
    for _,t,a in fs:
        r|=deps(t)
        for x in a['not']: r|=deps(x)
    return r
def emit(n):
    if n in done: return
    done.add(n)
    for d in sorted(item_deps(n)):
        if d in aliases or d in generics: emit(d)
    if n in generics: o.extend(emit_generic(n))
    else: o.extend(['/-- `type %s`, %s -/'%(n,cite(n)),'def g%s : Gr :='%n,'  %s'%ty(items[n]['ty'],{},None),''])
for n in items:
    if n in aliases or n in generics: emit(n)
o+=['/-- The structs made by `token_types!`, `src/parse/cst/rules/selmaho.rs:33-218` (`Parse` at 99-106, 154-164,','204-216), and `Bu`, 381-437.  The last case does not exist in the code. -/',
'def wordBody (s : Selmaho) : WordKind → Gr',
'  | .single => .wrap (.node (.word s)) (.seq (.many0 (.call (.word .Bahe))) (.seq (.raw s) (.seq (.opt (.call .Indicators))','      (.seq (.not (.call (.word .Bu))) (.not (.call (.word .Zei)))))))',
'  | .noIndicators => .wrap (.node (.word s)) (.seq (.many0 (.call (.word .Bahe))) (.seq (.raw s)','      (.seq (.not (.call (.word .Bu))) (.not (.call (.word .Zei))))))',
'  | .raw => .seq (.raw s) (.seq (.not (.call (.word .Bu))) (.not (.call (.word .Zei))))',
'  | .bu => .raw s','  | .absent => .raw s','']
o+=['/-- The body of each production. -/','def cst : CRule → Gr']
for n in rules:
    o.append('  -- %s'%cite(n)); o.append('  | .%s =>\n    %s'%(n,body(n)))
o+=['  | .word s => wordBody s (wordKind s)','','end Sneturfahi','']
open('/verif/lean/Verif/Model/CstRules.lean','w').write('\n'.join(o))
print(len(rules),len(generics),aliases,len(words))
