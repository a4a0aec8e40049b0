# Reads the part of C++ the headers are written in.
import re,sys,os
ROOT='/repo/include/boost/metaparse/v1/'
def tokenize(text,macros=None):
    # keep line numbers; drop comments and preprocessor lines, except for definitions of macros
    toks=[];i=0;line=1;n=len(text);bol=True
    while i<n:
        c=text[i]
        if c=='\n': line+=1;i+=1;bol=True;continue
        if c.isspace(): i+=1;continue
        if text.startswith('\\\n',i): i+=1;continue
        if c=='#' and bol:
            d=re.compile(r'#\s*define\s+(\w+)(?:\(([\w, ]*)\))?((?:[^\n\\]|\\.|\\\n)*)').match(text,i)
            if d and macros is not None:
                b=d.group(3)
                macros[d.group(1)]=([x.strip() for x in d.group(2).split(',')] if d.group(2) is not None else None,
                    [(t,l+line-1+text.count('\n',i,d.start(3))) for t,l in tokenize(b)])
            while i<n and text[i]!='\n':
                if text[i]=='\\' and text[i+1]=='\n': line+=1;i+=1
                i+=1
            continue
        bol=False
        if text.startswith('//',i):
            while i<n and text[i]!='\n': i+=1
            continue
        if text.startswith('/*',i):
            j=text.index('*/',i); line+=text.count('\n',i,j); i=j+2; continue
        m=re.compile(r"[A-Za-z_]\w*|\d+|'(?:\\.|[^'])'|\"(?:\\.|[^\"])*\"|\.\.\.|::|<=|>=|==|!=|&&|\|\||<<|[-+*/<>(){}\[\]:;,=!.&~]").match(text,i)
        if not m: raise Exception('tok %r at line %d'%(text[i:i+20],line))
        toks.append((m.group(),line)); i=m.end()
    return toks
ESC={'n':10,'r':13,'t':9,'0':0,"'":39,'\\':92}
def LST(a):
    # a list of arguments; those that begin with @ are lists
    if not any(x.startswith('@') for x in a): return '[%s]'%', '.join(a)
    parts=[];cur=[]
    for x in a:
        if x.startswith('@'):
            if cur: parts.append('[%s]'%', '.join(cur)); cur=[]
            parts.append(x[1:])
        else: cur.append(x)
    if cur: parts.append('[%s]'%', '.join(cur))
    return '('+' ++ '.join(parts)+')'
# the class templates that have a number of parameters with defaults for C++98
PADDED={'boost::metaparse::v1::'+x for x in 'sequence one_of nth_of_c nth_of first_of last_of one_of_c one_char_except one_char_except_c repeated_one_of repeated_one_of1 string impl::is_none_n'.split()}
LIMITS={'BOOST_METAPARSE_LIMIT_SEQUENCE_SIZE':'l.sequence','BOOST_METAPARSE_LIMIT_ONE_OF_SIZE':'l.oneOf','BOOST_METAPARSE_LIMIT_ONE_CHAR_EXCEPT_SIZE':'l.oneCharExcept','BOOST_METAPARSE_LIMIT_STRING_SIZE':'l.string'}
CONSTANTS={'BOOST_NO_CHAR':-1,'LONG_MAX':2**63-1}
class Lib:
    def __init__(s):
        s.templates={}   # fq -> dict(defaults, npar, specs list)
        s.order=[]
        s.alias={}       # fq -> (Tm, params)
        s.ids={}
lib=Lib()
# pass 1: collect declared names per namespace
class Parser:
    def __init__(s,path,toks,text,collect,macros={}):
        s.t=toks;s.i=0;s.path=path;s.lines=text.split('\n');s.collect=collect;s.macros=macros;s.meta={};s.rep=None
        s.ns=[];s.scopes=[]  # scopes: innermost last: dict(kind,params,members,name)
    def peek(s,k=0): return s.t[s.i+k][0] if s.i+k<len(s.t) else None
    def line(s): return s.t[min(s.i,len(s.t)-1)][1]
    def next(s):
        x=s.t[s.i][0]; s.i+=1; return x
    def expect(s,x):
        y=s.next()
        if y!=x: raise Exception('%s:%d expected %s got %s'%(s.path,s.t[s.i-1][1],x,y))
    def fq(s,name): return '::'.join(s.ns+[name])
    # ---- macros of Boost.Preprocessor
    def nat(s):
        x=s.next()
        if x in LIMITS: return LIMITS[x]
        if x.isdigit(): return x
        if x in s.meta: return s.meta[x]
        s.expect('(')
        a=s.nat()
        if x in('BOOST_PP_INC','BOOST_PP_DEC'): s.expect(')'); return '(%s %s 1)'%(a,'+' if x=='BOOST_PP_INC' else '-')
        s.expect(','); b=s.nat(); s.expect(')')
        return '(%s %s %s)'%(a,{'BOOST_PP_SUB':'-','BOOST_PP_MUL':'*'}[x],b)
    def comma_if(s):
        while s.peek()=='BOOST_PP_COMMA_IF' or s.peek()==',':
            if s.next()!=',': s.expect('('); s.nat(); s.expect(')')
    def numbered(s):
        # BOOST_PP_CAT(name, number), after it
        s.next(); s.expect('('); n=s.next()
        while s.peek()=='::': s.next(); n+='::'+s.next()
        s.expect(','); k=s.nat(); s.expect(')'); return n,k
    def macro(s,name,var,f,data=None):
        # the body of a macro with the number as a variable
        ps,b=s.macros[name]
        if data is not None: b=[(data,l) if t==ps[2] else (t,l) for t,l in b]
        keep=(s.t,s.i,s.meta)
        s.t,s.i,s.meta=b,0,dict(s.meta,**{ps[1]:var})
        x=f()
        assert s.i==len(s.t),(s.path,name,s.t[s.i:])
        s.t,s.i,s.meta=keep
        return x
    def var(s):
        return 'ijk'[sum(1 for v in s.meta.values() if v in 'ijk')] if s.meta else 'n'
    def bounds(s):
        # REPEAT(b, … or REPEAT_FROM_TO(a, b, …
        x=s.next(); s.expect('(')
        a='0'
        if x.endswith('FROM_TO'): a=s.nat(); s.expect(',')
        b=s.nat(); s.expect(','); m=s.next(); s.expect(','); s.expect('~'); s.expect(')')
        return (a,b,m)
    def ran(s,a,b): return '(List.range %s)'%b if a=='0' else "(List.range' %s (%s - %s))"%(a,b,a)
    # ---- declarations
    def top(s):
        while s.i<len(s.t):
            s.decl()
    def decl(s):
        x=s.peek()
        if x=='namespace':
            s.next(); n=s.next(); s.expect('{'); s.ns.append(n)
            while s.peek()!='}': s.decl()
            s.next(); s.ns.pop()
        elif x in ('template','struct','class'): s.klass(None)
        elif x=='typedef':
            start=s.line(); s.next(); t=s.typ(); n=s.next(); s.expect(';')
            lib.alias[s.fq(n)]=([],t,s.path,start,s.t[s.i-1][1])
        elif x=='BOOST_METAPARSE_V1_DEFINE_ERROR':
            l0=s.line(); s.next(); s.expect('('); n=s.next(); s.expect(',')
            s.next(); s.expect(')'); s.expect(';')
            f=s.fq(n); tm=lib.templates.setdefault(f,dict(defaults=[],specs=[],name=f,variadic=False))
            if not s.collect: tm['specs'].append(dict(pats=[],bases=[],decls=[('type','type','.self 0')],path=s.path,l0=l0,l1=s.t[s.i-1][1],prim=True))
        elif x==';': s.next()
        elif x in('BOOST_PP_REPEAT','BOOST_PP_REPEAT_FROM_TO'):
            a,b,m=s.bounds()
            s.rep=(a,b)
            def f():
                while s.i<len(s.t): s.decl()
            s.macro(m,'n',f)
            s.rep=None
        elif x=='using':
            while s.next()!=';': pass
        else: raise Exception('%s:%d decl %s'%(s.path,s.line(),x))
    def params(s):
        # after 'template <'
        ps=[]
        while s.peek()!='>':
            if s.peek() in('BOOST_PP_COMMA_IF',','): s.comma_if(); continue
            kind=s.next()
            if kind in('BOOST_PP_ENUM_PARAMS','BOOST_PP_ENUM_PARAMS_WITH_A_DEFAULT'):
                s.expect('('); k=s.nat(); s.expect(','); s.next(); name=s.next(); d=None
                if kind!='BOOST_PP_ENUM_PARAMS': s.expect(','); d=s.arg()
                s.expect(')')
                ps.append((name,('params',k),d))
                continue
            if kind=='template':
                # a class template as an argument: a number, see user::value
                while s.next()!='>': pass
                s.expect('class'); ps.append((s.next(),'template',None))
                if s.peek()==',': s.next()
                continue
            pack=False
            if s.peek()=='...': s.next(); pack=True
            name=None
            if re.match(r'[A-Za-z_]',s.peek() or '') : name=s.next()
            d=None
            if s.peek()=='=':
                s.next(); d=s.arg()
            ps.append((name,pack,d))
            if s.peek()==',': s.next()
        s.next()
        return ps
    def klass(s,parent):
        l0=s.line()
        ps=None
        if s.peek()=='template':
            s.next(); s.expect('<')
            save=s.i
            s.scopes.append(dict(params=set(),members={},name=None,tmp=True))
            # defaults may refer to namespace names only
            ps=s.params()
            s.scopes.pop()
            if s.peek()=='using':
                s.next(); n=s.next(); s.expect('=')
                s.scopes.append(dict(params={p[0] for p in ps},members={},name=None)); t=s.typ(); s.scopes.pop(); s.expect(';')
                lib.alias[s.fq(n)]=([p[0] for p in ps],t,s.path,l0,s.t[s.i-1][1]); return None
            if s.peek()=='const':
                while s.next()!=';': pass
                return None
            if s.peek()=='constexpr':
                while s.next()!=';': pass
                return None
        kw=s.next(); assert kw in('struct','class'),(s.path,s.line(),kw)
        number=None
        if s.peek()=='BOOST_PP_CAT': name,number=s.numbered()
        else: name=s.next()
        if name=='is_none0': name,number='is_none','0'
        if number is not None: name+='_n'
        pn=set(p[0] for p in ps or [] if p[0])
        packs=set(p[0] for p in ps or [] if p[1] is True)
        numb={p[0]:p[1][1] for p in ps or [] if type(p[1]) is tuple}
        scope=dict(params=pn,packs=packs,tts={p[0] for p in ps or [] if p[1]=='template'},numb=numb,members={},defs={},name=name,spec=False)
        s.scopes.append(scope)
        pats=None
        if s.peek()=='<':
            s.next(); pats=[]
            while s.peek()!='>':
                if s.peek() in('BOOST_PP_COMMA_IF',','): s.comma_if(); continue
                pats.append(s.pat(packs,pn))
            s.next(); scope['spec']=True
        if pats is None:
            pats=[]
            for k,(n,pk,d) in enumerate(ps or []):
                pats.append(('params',n,pk[1]) if type(pk) is tuple else ('pack' if pk is True else 'var', n or '_%d'%k))
        if number is not None: pats=[('num',number)]+pats
        # the arguments that are left out of a specialisation
        tp=lib.templates.get(s.fq(name),{})
        if scope['spec'] and parent is None and tp.get('pad'):
            k,d=tp['pad']
            if any(p[0]=='copies' and p[1]!='(%s - n)'%k.split(' ')[0] for p in pats):
                n=' + '.join(p[2] if p[0]=='params' else p[1] if p[0]=='copies' else '1' for p in pats)
                d={'.num 1024':('num',1024)}.get(d) or [p[2] for p in pats if p[0]=='copies'][0]
                pats.append(('copies','(%s - (%s))'%(k,n),d))
        if parent is None:
            f=s.fq(name)
            tm=lib.templates.setdefault(f,dict(defaults=None,specs=[],name=f))
        else:
            tm=parent['members'].setdefault(name,('tmpl',dict(defaults=None,specs=[],name=name)))[1]
        if not scope['spec'] and (tm['defaults'] is None or any(p[2] for p in ps or [])):
            tm['defaults']=[p[2] for p in ps or []]
            tm['variadic']=any(p[1] and p[1]!='template' for p in ps or [])
            for k,p in enumerate(ps or []):
                if type(p[1]) is tuple and p[2] is not None: tm['at']=(s.path,l0); tm['pad']=('%s + %d'%(p[1][1],k) if k else p[1][1],p[2])
            if number=='0' and ps and ps[0][2]: tm['at']=(s.path,l0); tm['pad']=('2',ps[0][2]); tm['variadic']=True
        if s.peek()==';':
            s.next(); s.scopes.pop(); return None
        # names of members: prescan
        j=s.i
        bases=[]
        # prescan members for lookup
        s.prescan(scope,name)
        if s.peek()==':':
            s.next()
            while True:
                while s.peek() in('public','private'): s.next()
                bases.append(s.typ())
                if s.peek()==',': s.next(); continue
                break
        s.expect('{')
        decls=[]
        while s.peek()!='}':
            x=s.peek()
            if x in('public','private','protected'): s.next(); s.expect(':'); continue
            if x==';': s.next(); continue
            if x=='typedef':
                s.next(); t=s.typ(); n=s.next(); s.expect(';')
                decls.append(('type',n,t)); scope['members'][n]=('type',True)
                for y,d in scope['defs'].items(): t=re.sub(r'\.var \%s(?!\w)'%ID(y),lambda m:d,t)
                scope['defs'][n]=t
            elif x in('template','struct','class'):
                r=s.klass(scope)
                if r is not None:
                    for d in decls:
                        if d[0]=='tmpl' and d[1]==r[0]: d[2].append(r[1]); break
                    else: decls.append(('tmpl',r[0],[r[1]]))
            elif x=='BOOST_STATIC_ASSERT':
                s.next(); s.expect('('); e=s.expr(); s.expect(')'); s.expect(';')
                decls.append(('assert',None,e))
            elif x=='static':
                # static const T name = expr ;   or a member function
                k=s.i
                while s.t[k][0] not in('=','(','['): k+=1
                if s.t[k][0]=='=' :
                    n=s.t[k-1][0]; s.i=k+1; e=s.expr(); s.expect(';'); decls.append(('val',n,e))
                else:
                    while s.peek() not in(';','{'): s.next()
                    if s.peek()=='{': s.skipbr()
                    else: s.next()
            else: raise Exception('%s:%d member %s'%(s.path,s.line(),x))
        s.next()
        l1=s.t[s.i-1][1]
        s.expect(';')
        s.scopes.pop()
        sp=dict(pats=pats,bases=bases,decls=decls,path=s.path,l0=l0,l1=l1,prim=not scope['spec'],rep=s.rep if parent is None else None)
        if parent is None:
            if not s.collect: tm['specs'].append(sp)
            return None
        return (name,sp)
    def skipbr(s):
        d=0
        while True:
            x=s.next()
            if x=='{': d+=1
            if x=='}':
                d-=1
                if d==0: return
    def prescan(s,scope,name):
        # find member names at depth 1 of the class body starting somewhere after s.i
        k=s.i
        while s.t[k][0]!='{': 
            k+=1
        d=1;k+=1
        while d>0:
            x=s.t[k][0]
            if x=='{': d+=1
            elif x=='}': d-=1
            elif d==1 and x in('struct','class') and s.t[k-1][0] not in('<',','):
                n=s.t[k+1][0]
                # number of params: re-parse lazily
                scope['members'].setdefault(n,('tmpl',dict(defaults=None,specs=[],name=n)))
            elif d==1 and x=='typedef':
                j=k; dd=0
                while s.t[j][0]!=';': j+=1
                scope['members'].setdefault(s.t[j-1][0],('type',False))
            k+=1
    # ---- patterns
    def pat(s,packs,pn):
        x=s.peek()
        if x=='true': s.next(); return ('num',1)
        if x=='false': s.next(); return ('num',0)
        if x=='-' : s.next(); return ('num',-int(s.next()))
        if x[0]=="'" : s.next(); return ('num',s.chr(x))
        if x.isdigit(): s.next(); return ('num',int(x))
        if x in CONSTANTS: s.next(); return ('num',CONSTANTS[x])
        if x in s.meta: s.next(); return ('num',s.meta[x])
        if x in s.macros and s.macros[x][0] is None: s.next(); return ('num',CONSTANTS[s.macros[x][1][0][0]])
        if x=='BOOST_PP_ENUM_PARAMS':
            s.next(); s.expect('('); k=s.nat(); s.expect(','); n=s.next(); s.expect(')')
            assert s.scopes[-1]['numb'][n]==k,(s.path,n,k)
            return ('params',n,k)
        if x=='BOOST_PP_ENUM':
            s.next(); s.expect('('); k=s.nat(); s.expect(','); p=s.pat(packs,pn); s.expect('BOOST_PP_TUPLE_EAT'); s.expect('('); s.next(); s.expect(')'); s.expect(','); s.expect('~'); s.expect(')')
            return ('copies',k,p)
        if x in pn and s.peek(1) not in('::',):
            s.next()
            if s.peek()=='...': s.next(); return ('pack',x)
            return ('var',x)
        f=s.qualified()
        args=[]
        if s.peek()=='<':
            s.next()
            while s.peek()!='>':
                if s.peek() in('BOOST_PP_COMMA_IF',','): s.comma_if(); continue
                args.append(s.pat(packs,pn))
            s.next()
        return ('cls',f,args)
    def chr(s,x):
        b=x[1:-1]
        return ESC[b[1]] if b[0]=='\\' else ord(b)
    # ---- names
    def qualified(s):
        s.number=None
        if s.peek()=='BOOST_PP_CAT':
            n,s.number=s.numbered(); return s.resolve(n+'_n')
        parts=[s.next()]
        while s.peek()=='::' and s.peek(1) not in('template',):
            # only while it is a namespace
            c='::'.join(parts)
            if not s.isns(c): break
            s.next()
            if s.peek()=='BOOST_PP_CAT':
                n,s.number=s.numbered(); parts.append(n+'_n'); break
            parts.append(s.next())
        return s.resolve('::'.join(parts))
    NSS={'boost','boost::mpl','boost::metaparse','boost::metaparse::v1','boost::metaparse::v1::impl','boost::metaparse::v1::util','boost::metaparse::v1::error','boost::metaparse::v1::grammar_util','std','user'}
    def isns(s,c):
        for k in range(len(s.ns),-1,-1):
            if '::'.join(s.ns[:k]+[c]) in s.NSS: return True
        return False
    def resolve(s,c):
        if c=='std::is_same': c='boost::is_same'
        if c in('boost::mpl::deque','boost::mpl::list'): c='boost::mpl::vector'
        for k in range(len(s.ns),-1,-1):
            f='::'.join(s.ns[:k]+[c])
            if f in lib.templates or f in lib.alias: return f
        if s.collect: return '?'+c
        raise Exception('%s:%d unresolved %s'%(s.path,s.line(),c))
    # ---- types
    def targs(s,f=None):
        s.expect('<'); a=[]
        while s.peek()!='>':
            if s.peek() in('BOOST_PP_COMMA_IF',','): s.comma_if(); continue
            a.append(s.arg())
        s.next()
        return a
    def ppargs(s):
        x=s.peek()
        if x=='BOOST_PP_ENUM_PARAMS':
            s.next(); s.expect('('); k=s.nat(); s.expect(','); n=s.next(); s.expect(')')
            v=s.var()
            return '@(List.range %s).map fun (%s : Nat) => .nth %s %s'%(k,v,ID(n),v)
        if x=='BOOST_PP_ENUM':
            s.next(); s.expect('('); k=s.nat(); s.expect(',')
            m=s.next(); s.expect(','); d=s.next(); s.expect(')')
            v=s.var()
            return '@(List.range %s).map fun (%s : Nat) => %s'%(k,v,s.macro(m,v,s.expr,None if d=='~' else d))
        if x in('BOOST_PP_REPEAT','BOOST_PP_REPEAT_FROM_TO'):
            a,b,m=s.bounds()
            v=s.var()
            def f():
                s.comma_if(); return s.expr()
            return '@%s.map fun (%s : Nat) => %s'%(s.ran(a,b),v,s.macro(m,v,f))
    def arg(s):
        if s.peek() in('BOOST_PP_ENUM_PARAMS','BOOST_PP_ENUM','BOOST_PP_REPEAT','BOOST_PP_REPEAT_FROM_TO'):
            x=s.ppargs()
            return '@('+x[1:]+')'
        e=s.expr()
        if s.peek()=='...':
            s.next()
            m=re.fullmatch(r'\.var \.(\w+)',e)
            if m: return '.spread '+ID(m.group(1))
            # find the pack in it
            packs=[p for sc in s.scopes for p in sc.get('packs',()) if re.search(r'\.var '+re.escape(ID(p))+r'\b',e)]
            assert len(packs)==1,(e,packs)
            return '.each %s (%s)'%(ID(packs[0]),e)
        return e
    def typ(s):
        if s.peek()=='typename': s.next()
        return s.postfix(s.primary())
    def primary(s):
        x=s.peek()
        if x=='(':
            s.next(); e=s.expr(); s.expect(')'); return e
        if x=='!':
            s.next(); return '.not (%s)'%s.postfix(s.primary())
        if x=='-': s.next(); return '.num (-%s)'%s.next()
        if x=='typename': s.next(); return s.primary()
        if x=='true': s.next(); return '.num 1'
        if x=='false': s.next(); return '.num 0'
        if x[0]=="'" : s.next(); return '.num %d'%s.chr(x)
        if x.isdigit(): s.next(); return '.num %s'%x
        if x=='sizeof':
            s.next(); s.expect('...'); s.expect('('); n=s.next(); s.expect(')'); return '.size '+ID(n)
        if x in('void','char','int','bool') and not (s.ns and x=='int_'):
            s.next(); USED.add(('builtin',x)); return '.cls %s []'%ID('t_'+x)
        if x in CONSTANTS: s.next(); return '.num %s'%(CONSTANTS[x] if CONSTANTS[x]>=0 else '(%d)'%CONSTANTS[x])
        if x in s.meta: s.next(); return '.num %s'%s.meta[x]
        if x in s.macros and s.macros[x][0] is None: s.next(); return '.num %d'%CONSTANTS[s.macros[x][1][0][0]]
        if x=='BOOST_PP_CAT':
            n=s.peek(2)
            for k,sc in enumerate(reversed(s.scopes)):
                if n in sc.get('numb',()):
                    n,k=s.numbered(); return '.nth %s %s'%(ID(n),k)
                if sc.get('name')==n+'_n':
                    j=s.i
                    s.numbered()
                    if s.peek()!='<': return '.self %d'%k
                    s.i=j
        # template parameter?
        for k,sc in enumerate(reversed(s.scopes)):
            if x in sc.get('tts',()) and s.peek(1)=='<': s.next(); return '.cls %s %s'%(NAME('user::value'),LST(['.var '+ID(x)]+s.targs()))
            if x in sc['params']: s.next(); return '.var '+ID(x)
            if x in sc['members'] and sc.get('name'):
                kind,info=sc['members'][x]
                s.next()
                if kind=='type':
                    if k==0: return '.var '+ID(x)
                    # of an enclosing class: its definition, since the enclosing class may still be incomplete
                    return re.sub(r'\.(self|inner) (\d+)',lambda m:'.%s %d'%(m.group(1),int(m.group(2))+k),sc['defs'][x])
                a=s.targs() if s.peek()=='<' else []
                return '.inner %d %s %s'%(k,ID(x),LST(a))
            if sc.get('name')==x and s.peek(1)!='<':
                s.next(); return '.self %d'%k
        f=s.qualified()
        number=s.number
        if f in lib.alias:
            ps,t,*_=lib.alias[f]
            assert not ps
            return t
        a=[]
        if s.peek()=='<': a=s.targs()
        if number is not None: a=['.num %s'%number]+a
        tm=lib.templates.get(f)
        if tm and tm['defaults'] and not tm.get('variadic'):
            for d in tm['defaults'][len(a):]:
                assert d is not None,(s.path,s.line(),f,a)
                a.append(d)
        return '.%s %s %s'%('padded' if f in PADDED and (not s.path.startswith('cpp11/') or s.path=='cpp11/string.hpp') else 'cls',NAME(f),LST(a))
    def postfix(s,e):
        while s.peek()=='::':
            s.next()
            if s.peek()=='template': s.next()
            n=s.next()
            if s.peek()=='<' and n not in('value',): 
                a=s.targs(); e='.memT (%s) %s %s'%(e,ID(n),LST(a))
            else: e='.mem (%s) %s'%(e,ID(n))
        return e
    PREC=[['||'],['&&'],['==','!='],['<','<='],['+','-'],['*']]
    OPN={'||':'or','&&':'and','==':'eq','!=':'ne','<':'lt','<=':'le','+':'add','-':'sub','*':'mul'}
    def expr(s,l=0):
        if l==len(s.PREC):
            return s.postfix(s.primary())
        e=s.expr(l+1)
        while s.peek() in s.PREC[l]:
            o=s.next(); r=s.expr(l+1)
            e='.op .%s (%s) (%s)'%(s.OPN[o],e,r)
        return e
USED=set()
def ID(n):
    n={'_0':'x0','_1':'x1','_2':'x2'}.get(n,n)
    if n in('import','end','begin','open','let','if','fun','at','do','class','instance','by','have','show','from','in','where','with','match','then','else','type_','prefix','export','private','public','unpaired_'): n=n+'_'
    lib.ids[n]=1
    return '.'+n
def NAME(f):
    if f.startswith("?"): return ".unknown"
    m=re.match(r'boost::metaparse::v1::(.*)$',f)
    if m: n=m.group(1).replace('::','_')
    elif f.startswith('boost::mpl::'): n='mpl_'+f[len('boost::mpl::'):]
    elif f.startswith('boost::'): n='boost_'+f[7:]
    elif f.startswith('std::'): n='std_'+f[5:]
    elif f.startswith('user::'): n='user_'+f[6:]
    else: raise Exception(f)
    if n=='mpl_deque': n='mpl_vector'
    return ID(n)
# ---- order of specialisations: a is at least as special as b if b's patterns match a's
def matchp(b,a,env):
    if b[0]=='var':
        if b[1] in env: return env[b[1]]==a
        if a[0]=='pack': return False
        env[b[1]]=a; return True
    if b[0]=='num': return a==b
    if b[0]=='cls': return a[0]=='cls' and a[1]==b[1] and matchl(b[2],a[2],env)
    raise Exception(b)
def matchl(bs,as_,env):
    if not bs: return not as_
    if bs[0][0]=='pack': 
        assert len(bs)==1; return True
    if not as_: return False
    return matchp(bs[0],as_[0],env) and matchl(bs[1:],as_[1:],env)
def ge(b,a): return matchl(b['pats'],a['pats'],{})
def sort(specs):
    # the definitions of a macro: more special the smaller the number, if they overlap
    if any(x.get('rep') for x in specs): return specs
    out=[]
    rest=list(specs)
    while rest:
        for x in rest:
            if all(y is x or not ge(x,y) or ge(y,x) for y in rest):
                out.append(x); rest.remove(x); break
        else: raise Exception('order')
    return out
def lp(p):
    if p[0]=='var': return '.var '+ID(p[1])
    if p[0]=='pack': return '.pack '+ID(p[1])
    if p[0]=='num': return '.num %s'%(p[1] if type(p[1]) is str or p[1]>=0 else '(%d)'%p[1])
    if p[0]=='params': return '.params %s %s'%(ID(p[1]),p[2])
    if p[0]=='copies': return '@List.replicate %s (%s)'%(p[1],lp(p[2]))
    return '.cls %s %s'%(NAME(p[1]),LST([lp(q) for q in p[2]]))
def lspec(sp,ind):
    pad=' '*ind
    s='⟨%s,\n%s  [%s],\n%s  ['%(LST([lp(p) for p in sp['pats']]),pad,(',\n   '+pad).join(sp['bases']),pad)
    ds=[]
    for d in sp['decls']:
        if d[0]=='type': ds.append('.type %s (%s)'%(ID(d[1]),d[2]))
        elif d[0]=='val': ds.append('.type %s (%s)'%(ID(d[1]),d[2]))
        elif d[0]=='assert': ds.append('.assert (%s)'%d[2])
        else: ds.append('.tmpl %s [\n%s    %s]'%(ID(d[1]),pad,(',\n    '+pad).join(lspec(x,ind+4) for x in sort(d[2]))))
    s+=(',\n   '+pad).join(ds)+']⟩'
    return s
def lspecs(specs,ind):
    parts=[];cur=[]
    for x in specs:
        if x.get('rep'):
            if cur: parts.append('[\n  %s]'%',\n  '.join(cur)); cur=[]
            a,b=x['rep']
            parts.append('(%s.map fun (n : Nat) => (\n  %s : Spec))'%('(List.range %s)'%b if a=='0' else "(List.range' %s (%s - %s))"%(a,b,a),lspec(x,ind)))
        else: cur.append(lspec(x,ind))
    if cur or not parts: parts.append('[\n  %s]'%',\n  '.join(cur))
    return ' ++\n  '.join(parts)
def run(files):
    texts={}
    for f in files:
        p=f if f.startswith('/') else ROOT+f
        texts[f]=open(p).read()
    for collect in(True,True,False):
        if not collect:
            for t in lib.templates.values(): t['specs']=[]
        for f in files:
            macros={}
            Parser(f,tokenize(texts[f],macros),texts[f],collect,macros).top()
    return texts
