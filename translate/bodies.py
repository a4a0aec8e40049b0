# Writes what every class template is when it is instantiated (Verif/Lemmas/Templates/Bodies.lean) to the standard output.
import os,sys
sys.path.insert(0,os.path.dirname(os.path.abspath(__file__)))
from translate import *
# need structured terms: reparse strings emitted by the translator
def ptok(s): return re.findall(r'[()\[\],]|[^\s()\[\],]+',s)
class TP:
    def __init__(s,x): s.t=ptok(x); s.i=0
    def tm(s):
        # application form without outer parens
        h=s.t[s.i]; s.i+=1
        if h=='(':
            r=s.tm(); assert s.t[s.i]==')'; s.i+=1; return r
        assert h.startswith('.'),(h,s.t)
        k=h[1:]
        if k in('var','spread','size'): x=s.t[s.i][1:]; s.i+=1; return (k,x)
        if k=='each': x=s.t[s.i][1:]; s.i+=1; return (k,x,s.atom())
        if k in('cls','padded'): n=s.t[s.i][1:]; s.i+=1; return (k,n,s.lst())
        if k=='inner': d=int(s.t[s.i]); n=s.t[s.i+1][1:]; s.i+=2; return (k,d,n,s.lst())
        if k=='self': d=int(s.t[s.i]); s.i+=1; return (k,d)
        if k=='mem': a=s.atom(); x=s.t[s.i][1:]; s.i+=1; return (k,a,x)
        if k=='memT': a=s.atom(); x=s.t[s.i][1:]; s.i+=1; return (k,a,x,s.lst())
        if k=='num':
            if s.t[s.i]=='(':
                n=s.t[s.i+1]; s.i+=3; return (k,int(n))
            n=s.t[s.i]; s.i+=1; return (k,int(n))
        if k=='op': o=s.t[s.i][1:]; s.i+=1; a=s.atom(); b=s.atom(); return (k,o,a,b)
        if k=='not': return (k,s.atom())
        raise Exception(k)
    def atom(s):
        assert s.t[s.i]=='('; s.i+=1; r=s.tm(); assert s.t[s.i]==')'; s.i+=1; return r
    def lst(s):
        assert s.t[s.i]=='['; s.i+=1; r=[]
        while s.t[s.i]!=']':
            r.append(s.tm())
            if s.t[s.i]==',': s.i+=1
        s.i+=1; return r
def parse(x):
    p=TP(x); r=p.tm(); assert p.i==len(p.t),(x,p.t[p.i:]); return r
LV=lambda x: 'v'+x
cnt=[0]
def fresh(p):
    cnt[0]+=1; return '%s%d'%(p,cnt[0])
def closed(t):
    # the class of a term without variables and members, or None
    if t[0]=='num': return '(V.num %s)'%(t[1] if t[1]>=0 else '(%d)'%t[1])
    if t[0]!='cls': return None
    a=[closed(x) for x in t[2]]
    return None if None in a else '(V.cls .root .%s [%s])'%(t[1],', '.join(a))
def comp(t,env,selves,k):
    if closed(t): return k(closed(t))
    if t[0]=='var': return k(env[t[1]][1])
    if t[0]=='cls': return comps(t[2],env,selves,lambda a:k('(V.cls .root .%s %s)'%(t[1],a)))
    if t[0]=='padded': return comps(t[2],env,selves,lambda a:k('(V.cls .root .%s (fill .%s %s))'%(t[1],t[1],a)))
    if t[0]=='inner': return comps(t[3],env,selves,lambda a:k('(V.cls %s .%s %s)'%(selves[t[1]],t[2],a)))
    if t[0]=='self': return k(selves[t[1]])
    if t[0]=='mem':
        def f(v):
            x=fresh('x'); return '(get h %s .%s).bind fun %s =>\n    %s'%(v,t[2],x,k(x))
        return comp(t[1],env,selves,f)
    if t[0]=='memT':
        def f(v):
            x=fresh('o'); return '(owner h %s .%s).bind fun %s =>\n    %s'%(v,t[2],x,comps(t[3],env,selves,lambda a:k('(V.cls %s .%s %s)'%(x,t[2],a))))
        return comp(t[1],env,selves,f)
    if t[0]=='num': return k('(V.num %s)'%(t[1] if t[1]>=0 else '(%d)'%t[1]))
    if t[0]=='op':
        def f(a):
            def g(b):
                x=fresh('x'); return '(Op.ev .%s %s %s).bind fun %s =>\n    %s'%(t[1],a,b,x,k(x))
            return comp(t[3],env,selves,g)
        return comp(t[2],env,selves,f)
    if t[0]=='not':
        def f(a):
            x=fresh('x'); return '(evNot %s).bind fun %s =>\n    %s'%(a,x,k(x))
        return comp(t[1],env,selves,f)
    if t[0]=='size':
        return k('(V.num (%s.length : Int))'%env[t[1]][1])
    raise Exception(t)
def comps(ts,env,selves,k):
    def go(i,acc):
        if i==len(ts):
            # acc: list of ('one',x)|('many',x)
            parts=[];cur=[]
            for kd,x in acc:
                if kd=='one': cur.append(x)
                else:
                    if cur: parts.append('[%s]'%', '.join(cur)); cur=[]
                    parts.append(x)
            if cur or not parts: parts.append('[%s]'%', '.join(cur))
            if len(parts)==2 and parts[0].startswith('['): return k('('+' :: '.join([x for kd,x in acc])+')')
            return k(parts[0] if len(parts)==1 else '('+' ++ '.join(parts)+')')
        t=ts[i]
        if t[0]=='spread': return go(i+1,acc+[('many',env[t[1]][1])])
        if t[0]=='each':
            y=fresh('y'); e2=dict(env); e2[t[1]]=('one',y); x=fresh('xs')
            inner=comp(t[2],e2,selves,lambda v:'Out.ok %s'%v)
            return '(mapOut (fun %s => %s) %s).bind fun %s =>\n    %s'%(y,inner,env[t[1]][1],x,go(i+1,acc+[('many',x)]))
        return comp(t,env,selves,lambda v:go(i+1,acc+[('one',v)]))
    return go(0,[])
def patV(p,vs):
    if p[0]=='var': vs.setdefault(p[1],('one',LV(p[1]))); return LV(p[1])
    if p[0]=='num': return '(V.num %s)'%(p[1] if p[1]>=0 else '(%d)'%p[1])
    if p[0]=='cls': return '(V.cls .root %s %s)'%(NAME(p[1]),patsV(p[2],vs))
def patsV(ps,vs):
    parts=[]
    for p in ps:
        if p[0]=='pack':
            vs.setdefault(p[1],('many',LV(p[1])))
            return ('('+' :: '.join(parts+[LV(p[1])])+')') if parts else LV(p[1])
        parts.append(patV(p,vs))
    return '['+', '.join(parts)+']'
def lpl(ps): return '['+', '.join(lp(p) for p in ps)+']'
def dup(ps):
    seen=set()
    def go(p):
        if p[0] in('var','pack'):
            if p[1] in seen: return True
            seen.add(p[1]); return False
        if p[0]=='cls': return any([go(q) for q in p[2]])
        return False
    return any([go(p) for p in ps])
def apart(p,q):
    if p[0]=='cls' and q[0]=='cls': return p[1]!=q[1] or apart_l(p[2],q[2])
    if p[0]=='num' and q[0]=='num': return p[1]!=q[1]
    return p[0] in('cls','num') and q[0] in('cls','num') and p[0]!=q[0]
def apart_l(ps,qs):
    # ps: the pattern that is tried, qs: the shape of the arguments; only when no stuck match comes first
    for i,p in enumerate(ps):
        if p[0]=='pack': return False
        if i>=len(qs): return True
        if qs[i][0]=='pack': return False
        if apart(p,qs[i]): return True
        if p[0]!='var' or p in ps[:i]: 
            if not(p[0]==qs[i][0] and p==qs[i]): return False
    return len(qs)>len(ps) and all(q[0]!='pack' for q in qs[:len(ps)+1])
def has_params(p): return p[0]=='params' or p[0]=='cls' and any(has_params(q) for q in p[2])
out=[]
def emit(name,specs,outerV,outerEnv,outerSelves,prefix,hyps,outerRes=None):
    specs=sort(specs)
    for i,sp in enumerate(specs):
        cnt[0]=0
        env={}
        # rename clashes: inner parameters with the same name as outer ones
        def ren(p):
            return p
        vs={}
        args=patsV(sp['pats'],vs)
        clash=[x for x in vs if x in outerEnv]
        lean={}
        sub={}
        for x in vs:
            nm='v'+x
            while nm in [e[1] for e in outerEnv.values()]: nm+="'"
            sub['v'+x]=nm
            lean[x]=(vs[x][0],nm)
        for a,b in sub.items():
            if a!=b: args=re.sub(r'\b%s\b'%re.escape(a),b,args)
        env=dict(outerEnv); env.update(lean)
        V='(V.cls .root .%s %s)'%(name,args) if outerV is None else '(V.cls %s .%s %s)'%(outerV,name,args)
        selves=[V]+outerSelves
        hy=list(hyps); hn_of={}
        for j in range(i):
            # needs a hypothesis unless lengths/constants differ obviously
            if apart_l(specs[j]['pats'],sp['pats']): hn_of[j]='rfl'; continue
            hn='h%s%d'%(re.sub(r'\W','',prefix),j)
            hn_of[j]=hn
            hy.append((hn,'Pat.fits %s %s [] = none'%(lpl(specs[j]['pats']),args)))
        lbl=prefix+('' if len(specs)==1 else '_%d'%i)
        ch=[]
        for j in range(i):
            ch.append('apply choose_next'); ch.append('· exact '+hn_of[j])
        ch.append('refine choose_here '+('fits_dup_%s'%lbl if dup(sp['pats']) else 'rfl'))
        res=['apply resolve_top']+ch if outerV is None else ['apply resolve_in']+outerRes+ch
        def body():
            bases=[parse(b) for b in sp['bases']]
            def dob(i,acc):
                if i==len(bases): return dod(0,dict(env),[],acc)
                def f(v):
                    x=fresh('b'); return '(h %s).bind fun %s =>\n    %s'%(v,x,dob(i+1,acc+[x]))
                return comp(bases[i],env,selves,f)
            ds=sp['decls']
            def dod(i,e,ms,acc):
                if i==len(ds):
                    r='Out.ok (['+', '.join(ms)+']'+''.join(' ++ '+x for x in acc)+')' if ms else ('Out.ok '+(' ++ '.join(acc) if len(acc)>1 else acc[0]) if acc else 'Out.ok []')
                    return r
                d=ds[i]
                if d[0] in('type','val'):
                    def f(v):
                        e2=dict(e); e2[d[1]]=('one',v)
                        return dod(i+1,e2,ms+['(%s, .ty %s)'%(ID(d[1]),v)],acc)
                    return comp(parse(d[2]),e,selves,f)
                if d[0]=='assert':
                    return comp(parse(d[2]),e,selves,lambda v:'if %s = .num 0 then Out.ill .noType else %s'%(v,dod(i+1,e,ms,acc)))
                return dod(i+1,e,ms+['(%s, .tmpl %s)'%(ID(d[1]),V)],acc)
            return dob(0,[])
        ones=[e[1] for e in env.values() if e[0]=='one']; manys=[e[1] for e in env.values() if e[0]=='many']
        binder=(' {%s : V}'%' '.join(ones) if ones else '')+(' {%s : List V}'%' '.join(manys) if manys else '')
        hb=''.join('\n    (%s : %s)'%x for x in hy)
        pre=lambda: None
        out.append((lbl,binder,hb,V,body(),i,hy,outerV is None,sp,name,res,root))
        # nested templates
        for d in sp['decls']:
            if d[0]=='tmpl': emit(ID(d[1])[1:],d[2],V,env,selves,lbl+'_'+d[1],hy,res)
root=None
for f,t in lib.templates.items():
    root=NAME(f)[1:]
    if t['specs'] and not any(x.get('rep') for x in t['specs']): emit(NAME(f)[1:],t['specs'],None,{},[],NAME(f)[1:],[])
# the templates of C++98 that no macro repeats
out11=out; out=[]
plain98=[f for f in lib98.templates if NAME(f)[1:] in only98 and lib98.templates[f]['specs']
    and not any(sp.get('rep') or any(has_params(p) for p in sp['pats']) for sp in lib98.templates[f]['specs'])]
for f in plain98:
    root=NAME(f)[1:]
    emit(root,lib98.templates[f]['specs'],None,{},[],root,[])
out98=out; out=out11


HEAD="""import Verif.Lemmas.Templates.Resolve
/-!
# What the instantiation of each class consists of

Generated by `/verif/translate/bodies.py` from the same texts as the definitions: for each class template and
specialisation, the steps of its instantiation, proved by computation.
-/

set_option linter.unusedVariables false
set_option linter.unusedSimpArgs false
set_option linter.unusedSectionVars false

namespace Metaparse.Tmpl

variable {U : User} {h : V → Out Members}
"""
def th(x,pre=''):
    lbl,binder,hb,V,b,i,hy,top,sp,name,res,root=x
    return ('theorem body'+pre+'_%s%s%s :\n    '+('instantiate' if not pre else 'instantiate')+' U h %s =\n    %s := by\n'+('  obtain ⟨hd⟩ := L\n  change hd = _ at hL\n  subst hL\n  letI := cpp98 l\n' if pre else '')+'  apply Eq.trans (b := _)\n  apply body_of\n%s\n  · intro k hk; cases hk\n  body_simp\n')%(lbl,(' [L : Lang] {l : Limits} (hL : L.headers = .cpp98 l)' if pre else '')+binder,hb,V,b,'\n'.join('  '+x for x in res))
if __name__=='__main__':
    sel=sys.argv[1:]
    print(HEAD)
    def do(f):
        for x in out:
            if sel and not any(x[0].startswith(y) for y in sel): continue
            if f(x): print(th(x))
    print('section\n\nvariable [Lang]\n')
    do(lambda x:x[-1] not in only11)
    print('end\n\n/-! ## C++11 -/\n\nsection\n\nattribute [local instance] cpp11\n')
    do(lambda x:x[-1] in only11)
    print('end\n\n/-! ## C++98 -/\n')
    for x in out98:
        if not sel: print(th(x,'98'))
    print('end Metaparse.Tmpl')
