"""Translates the project's own tests (/repo/tests/tests.rs, /repo/tests/error_types.rs) into Lean
examples about the model: same input bytes, same assertions.  The three tests that collect
discriminants in a HashSet and the one that filters a body go to Special.lean; the unit tests of src/decode/integer.rs are translated by hand in Verif/Check/Integers.lean.
usage: gen_tests.py  (writes lean/Verif/Check/{Modules,Special,Errors1,Errors2}.lean)"""
import re,struct,os
REPO='/repo/'
OUT=os.path.join(os.path.dirname(__file__),'../lean/Verif/Check/')
ops=open(os.path.join(os.path.dirname(__file__),'../lean/Verif/Core/Ops.lean')).read()
fam={}
for m in re.finditer(r'inductive (\w+) where(.*?)deriving',ops,re.S):
    for c in re.findall(r'\|\s*(\w+)',m.group(2)): fam[c]=m.group(1)
FAM={'PlainOp':'plain','MemOp':'mem','MemLaneOp':'memLane','LaneOp':'lane'}
STRUCT={'TypeIdx','FuncIdx','TableIdx','MemIdx','GlobalIdx','ElemIdx','DataIdx','LocalIdx','LabelIdx','TagIdx','LaneIdx','RefType','GlobalType','FieldType','SubType','RecType','Limits','MemType','TableType','TagType','Memarg','Import','Export','Func','Global','Data','Elem','Table','CustomSection','SectionHeader','Module'}
class Unsupported(Exception): pass
def tokenize(s):
    toks=[];i=0;line=1
    rx=re.compile(r'''(?P<ws>\s+)|(?P<cm>//[^\n]*)|(?P<bs>b"(?:[^"\\]|\\.)*")|(?P<st>"(?:[^"\\]|\\.)*")|(?P<num>0x[0-9A-Fa-f_]+|\d[\d_]*\.\d[\d_]*(?:_?f32|_?f64)?|\d[\d_]*(?:u8|u16|u32|u64|i32|i64|usize|_?f32|_?f64)?)|(?P<id>(?:r\#)?[A-Za-z_]\w*)|(?P<p>::|=>|\.\.=|\.\.|&&|\|\||==|<<|[-+*/&|<>=!.,;:#?(){}\[\]])''',re.X)
    while i<len(s):
        m=rx.match(s,i)
        if not m: raise Exception('tok '+s[i:i+30])
        k=m.lastgroup
        if k not in('ws','cm'): toks.append((k,m.group(),line))
        line+=m.group().count('\n'); i=m.end()
    return toks
def num(t):
    t=t.replace('_','')
    for suf in('u8','u16','u32','u64','i32','i64','usize','f32','f64'):
        if not t.startswith('0x') and t.endswith(suf): t=t[:-len(suf)]
    return ('num',float(t) if '.' in t else int(t,0))
def unesc(t):
    return eval('b'+t).decode('latin1')
class P:
    def __init__(s,t): s.t=t;s.i=0
    def pk(s,o=0): return s.t[s.i+o][1] if s.i+o<len(s.t) else ''
    def kd(s,o=0): return s.t[s.i+o][0] if s.i+o<len(s.t) else ''
    def nx(s): s.i+=1; return s.t[s.i-1][1]
    def ex(s,x):
        if s.pk()!=x: raise Exception('expected %s got %s at line %d'%(x,s.pk(),s.t[s.i][2]))
        s.i+=1
    def path(s):
        p=[s.nx().replace('r#','')]
        while s.pk()=='::':
            s.nx()
            if s.pk()=='<':
                d=0
                while True:
                    x=s.nx()
                    if x=='<': d+=1
                    if x=='>': d-=1
                    if d==0: break
            else: p.append(s.nx().replace('r#',''))
        return p
    def seq(s,end,f):
        r=[]
        while s.pk()!=end:
            r.append(f())
            if s.pk()==',': s.nx()
            elif s.pk()==';' : s.nx(); n=s.expr(); s.ex(end); return [('rep',r[0],n)]
        s.ex(end); return r
    def expr(s,nostruct=False): return s.bin(0,nostruct)
    LV=[['||'],['&&'],['==','<','>'],['|'],['..'],['<<'],['+','-'],['*']]
    def bin(s,l,ns):
        if l==len(s.LV): return s.unary(ns)
        a=s.bin(l+1,ns)
        while s.pk() in s.LV[l] and s.kd()=='p':
            o=s.nx(); b=s.bin(l+1,ns); a=('bin',o,a,b)
        return a
    def unary(s,ns):
        if s.pk() in('&','*') and s.kd()=='p':
            s.nx()
            if s.pk()=='mut': s.nx()
            return s.unary(ns)
        if s.pk()=='-': s.nx(); return ('neg',s.unary(ns))
        if s.pk()=='!': raise Unsupported('!')
        return s.post(s.prim(ns),ns)
    def post(s,e,ns):
        while True:
            if s.pk()=='.':
                s.nx(); n=s.nx().replace('r#','')
                if s.pk()=='::':
                    s.i-=1; s.path()
                if s.pk()=='(': s.nx(); e=('meth',e,n,s.seq(')',s.expr))
                else: e=('field',e,n)
            elif s.pk()=='(' : s.nx(); e=('call',e,s.seq(')',s.expr))
            elif s.pk()=='[' : s.nx(); x=s.expr(); s.ex(']'); e=('idx',e,x)
            elif s.pk()=='as': s.nx(); s.path()
            else: return e
    def prim(s,ns):
        k,t=s.kd(),s.pk()
        if k=='num': s.nx(); return num(t)
        if k=='st': s.nx(); return('str',list(eval(t).encode()))
        if k=='bs': s.nx(); return('bytes',list(eval(t)))
        if t=='(':
            s.nx(); r=s.seq(')',s.expr); return r[0] if len(r)==1 else ('tup',r)
        if t=='[': s.nx(); return('list',s.seq(']',s.expr))
        if t in('|','||'):
            # the only closure handled: |b| b as u8, in (a..b).map(..)
            if [s.pk(j) for j in range(6)]==['|','b','|','b','as','u8']: s.i+=6; return('idclosure',)
            raise Unsupported('closure')
        if t=='match':
            s.nx(); x=s.expr(True); s.ex('{'); arms=[]
            while s.pk()!='}':
                p=s.pat(); s.ex('=>')
                b=s.block() if s.pk()=='{' else s.expr()
                if s.pk()==',': s.nx()
                arms.append((p,b))
            s.ex('}'); return('match',x,arms)
        if t=='{': return s.block()
        if t in('for','if','while'): raise Unsupported(t)
        if k=='id':
            p=s.path()
            if s.pk()=='!' and s.kd()=='p':
                s.nx(); o=s.nx()
                if p==['vec']: return('list',s.seq(']',s.expr))
                if p==['matches']:
                    x=s.expr(); s.ex(','); q=s.pat()
                    if s.pk()==',': s.nx()
                    s.ex(')'); return('match',x,[(q,('true',)),(('_',),('false',))])
                if p==['panic']:
                    d=1
                    while d:
                        x=s.nx(); d+= (x=='(')-(x==')')
                    return('false',)
                return('mac',p[0],s.seq(')',s.expr))
            if s.pk()=='{' and not ns and p[-1][0].isupper():
                s.nx(); fs=[];d=False
                while s.pk()!='}':
                    if s.pk()=='..': s.nx(); s.expr(); d=True; continue
                    n=s.nx().replace('r#','')
                    if s.pk()==':': s.nx(); v=s.expr()
                    else: v=('path',[n])
                    fs.append((n,v))
                    if s.pk()==',': s.nx()
                s.ex('}'); return('struct',p,fs,d)
            return('path',p)
        raise Exception('prim '+t+' line %d'%s.t[s.i][2])
    def block(s):
        s.ex('{'); st=[]
        while s.pk()!='}':
            if s.pk()=='let':
                s.nx()
                if s.pk()=='mut': s.nx()
                n=s.nx()
                if s.pk()==':':
                    while s.pk()!='=': s.nx()
                s.ex('='); e=s.expr(); s.ex(';'); st.append(('let',n,e))
            elif s.pk()=='use': raise Unsupported('use')
            else:
                e=s.expr()
                if s.pk()==';': s.nx()
                elif s.pk()=='=': # assignment  input = ...
                    s.nx(); v=s.expr(); s.ex(';'); st.append(('let',e[1][0],v)); continue
                st.append(('ex',e))
        s.ex('}'); return('block',st)
    def pat(s):
        if s.pk()=='|': s.nx()
        a=[s.pat1()]
        while s.pk()=='|': s.nx(); a.append(s.pat1())
        return a[0] if len(a)==1 else('or',a)
    def pat1(s):
        k,t=s.kd(),s.pk()
        if t=='&': s.nx(); return s.pat1()
        if t=='_': s.nx(); return('_',)
        if t=='..': s.nx(); return('..',)
        if k=='num': s.nx(); return num(t)
        if t=='-': s.nx(); return('neg',num(s.nx()))
        if t=='(': s.nx(); r=s.seq(')',s.pat); return r[0]
        p=s.path()
        if s.pk()=='(': s.nx(); return('pc',p,s.seq(')',s.pat))
        if s.pk()=='{':
            s.nx(); fs=[]
            while s.pk()!='}':
                if s.pk()=='..': s.nx(); continue
                n=s.nx()
                if s.pk()==':': s.nx(); v=s.pat()
                else: v=('bind',n)
                fs.append((n,v))
                if s.pk()==',': s.nx()
            s.ex('}'); return('ps',p,fs)
        if len(p)==1 and p[0][0].islower(): return('bind',p[0])
        return('pc',p,[])
KW={'Type','if','import','export','type','module','local','global','else','mut','struct','catch'}
def q(n): return '«%s»'%n if n in KW else n
def pat(p):
    k=p[0]
    if k in('_','..'): return '_'
    if k=='num': return str(p[1])
    if k=='neg': return '(-%d)'%p[1][1]
    if k=='bind': return q(p[1])
    if k=='pc':
        path=p[1]
        if len(path)==1: c='.mk' if path[0] not in('Some','None') else {'Some':'.some','None':'.none'}[path[0]]
        else:
            if path[0]=='Instruction' and path[1] in fam:
                return '(.%s .%s%s)'%(FAM[fam[path[1]]],path[1],''.join(' '+pat(x) for x in p[2]))
            c='.'+q(path[1])
        if not p[2]: return c
        return '(%s %s)'%(c,' '.join(pat(x) for x in p[2]))
    if k=='ps':
        c='.'+q(p[1][1]) if len(p[1])>1 else '.mk'
        return '(%s %s)'%(c,' '.join('(%s := %s)'%(n,pat(v)) for n,v in p[2]))
    raise Unsupported('pat '+k)
HELPERS={'ref_null_func':'(RefType.mk true (.Ht .Func))','ref_func':'(RefType.mk false (.Ht .Func))',
 'heaptype_func':'(HeapType.Ht .Func)','heaptype_eq':'(HeapType.Ht .Eq)','heaptype_any':'(HeapType.Ht .Any)',
 'heaptype_exn':'(HeapType.Ht .Exn)','heaptype_noexn':'(HeapType.Ht .NoExn)'}
def ex(e,env):
    k=e[0]
    f=lambda x:ex(x,env)
    if k=='num': return str(e[1])
    if k=='neg': return '(-%s)'%f(e[1])
    if k=='str': return '(Str.mk %s)'%e[1]
    if k=='bytes': return '(%s : List UInt8)'%e[1]
    if k in('true','false'): return k
    if k=='list':
        if len(e[1])==1 and e[1][0][0]=='rep': return '(List.replicate %s %s)'%(f(e[1][0][2]),f(e[1][0][1]))
        return '['+', '.join(f(x) for x in e[1])+']'
    if k=='path':
        p=e[1]
        if len(p)==1:
            n=p[0]
            if n in env: return env[n]
            if n in('true','false'): return n
            if n=='None': return 'none'
            return q(n)
        if p[-1]=='UnexpectedEof': return 'IoError.unexpectedEof'
        if p==['u32','MAX']: return '4294967295'
        if p[0]=='Instruction':
            return '(Instr.%s .%s)'%(FAM[fam[p[1]]],p[1]) if p[1] in fam else 'Instr.'+q(p[1])
        return p[-2]+'.'+q(p[-1])
    if k=='call':
        h,a=e[1],e[2]
        if h[0]=='path':
            p=h[1]
            if p==['Some']: return '(some %s)'%f(a[0])
            if p==['u64','from']: return f(a[0])+('.toUInt64' if a[0][0]=='path' and len(a[0][1])==1 else '')
            if p==['rectypes']: return '(rectypes %s)'%f(a[0])
            if p in(['Vec','new'],):return '[]'
            if p==['Module','default']: return 'moduleDefault'
            if p[0] in HELPERS: return HELPERS[p[0]]
            if p==['File','open']: return ('FILE',f(a[0]) if a[0][0]!='str' else bytes(a[0][1]).decode())
            if p==['decode_module']:
                x=f(a[0]); return ('DEC',x)
            if p[0]=='Instruction':
                n=p[1]
                if n in fam: return '(Instr.%s .%s %s)'%(FAM[fam[n]],n,' '.join(f(x) for x in a))
                if n=='F32Const': return '(Instr.F32Const %d)'%struct.unpack('<I',struct.pack('<f',fl(a[0])))[0]
                if n=='F64Const': return '(Instr.F64Const %d)'%struct.unpack('<Q',struct.pack('<d',fl(a[0])))[0]
                if n=='V128Const': return '(Instr.V128Const ⟨%s, rfl⟩)'%f(a[0])
                if n=='I8x16Shuffle': return '(Instr.I8x16Shuffle ⟨[%s], rfl⟩)'%', '.join(f(x[2][0]) for x in a[0][1])
                return '(Instr.%s %s)'%(q(n),' '.join(f(x) for x in a))
            if len(p)==1 and p[0] in STRUCT: return '(%s.mk %s)'%(p[0],' '.join(f(x) for x in a))
            if len(p)==2: return '(%s.%s %s)'%(p[0],q(p[1]),' '.join(f(x) for x in a))
        raise Unsupported('call '+str(h))
    if k=='struct':
        p,fs,d=e[1],e[2],e[3]
        if len(p)==1:
            if d: return '{ %sDefault with %s\x03 }'%(p[0].lower(),', '.join('\x01%s := %s'%(q(n),f(v)) for n,v in fs))
            return '(%s.mk %s)'%(p[0],' '.join('(%s := %s)'%(q(n),f(v)) for n,v in fs))
        return '(%s.%s %s)'%(p[0],q(p[1]),' '.join('(%s := %s)'%(n,f(v)) for n,v in fs))
    if k=='field':
        x=f(e[1])
        if e[2]=='0': return '(match %s with | .mk x => x)'%x
        return '%s.%s'%(x,q(e[2]))
    if k=='idx': return '%s[%s]!'%(f(e[1]),f(e[2]))
    if k=='bin':
        if e[2][0]=='num' and e[3][0]=='num' and e[1] in('<<','+'): return str(e[2][1]<<e[3][1] if e[1]=='<<' else e[2][1]+e[3][1])
        if e[1]=='+' and e[3][0]=='num' and f(e[2]).isdigit(): return str(int(f(e[2]))+e[3][1])
        if e[1]=='<<': return '(%s <<< %s)'%(f(e[2]),f(e[3]))
        if e[1] in('<','>'): return '(decide (%s %s %s))'%(f(e[2]),e[1],f(e[3]))
        return '(%s %s %s)'%(f(e[2]),e[1],f(e[3]))
    if k=='meth':
        n=e[2]
        if n=='collect' and e[1][0]=='meth':
            g=e[1]
            if g[2]=='map' and g[3]==[('idclosure',)] and g[1][0]=='bin' and g[1][1]=='..' and g[1][2]==('num',0):
                return '((List.range %s).map UInt8.ofNat)'%f(g[1][3])
            raise Unsupported('collect')
        x=f(e[1])
        if n in('to_owned','to_vec','clone','kind','to_string','into','utf8_error','as_slice'): return x
        if n=='unwrap' and isinstance(x,tuple) and x[0]=='FILE': return x
        if n=='unwrap' and isinstance(x,tuple) and x[0]=='DEC': return ('OK',x[1])
        if n=='expect_err' and isinstance(x,tuple): return ('ERR',x[1])
        if n=='len': return x+'.length'
        if n=='is_empty': return x+'.isEmpty'
        if n in('valid_up_to','error_len'): return '%s.%s'%(x,n)
        raise Unsupported('meth '+n)
    raise Unsupported('ex '+k)
def fl(e):
    if e[0]=='num': return float(e[1])
    if e[0]=='neg': return -fl(e[1])
    raise Unsupported('float')
def bytesOf(x):
    if isinstance(x,tuple) and x[0]=='FILE':
        return list(open(os.path.join(REPO,x[1]),'rb').read()),x[1]
    return x,None
class T:
    """one test: list of (kind, bytes, condition)"""
    def __init__(s): s.obl=[]; s.n=0
def wrap(t,env):
    return env
def stmts(st,env,T):
    """returns list of Lean Bool conditions; decoded things become lambda-bound names in T"""
    conds=[]
    for x in st:
        if x[0]=='let':
            if x[2][0]=='str': env[x[1]]=bytes(x[2][1]).decode(); continue
            if x[2][0]=='list' and x[1] in('module','input'): env[x[1]]=('BYTES',[v[1] for v in x[2][1]]); continue
            v=ex(x[2],env)
            if isinstance(v,tuple) and v[0] in('OK','ERR'):
                T.n+=1; nm=('m' if v[0]=='OK' else 'e')+(str(T.n) if T.n>1 else '')
                T.obl.append([v[0],v[1],nm,[]]); v=nm
            env[x[1]]=v
        else:
            c=cond(x[1],env,T)
            if c is not None: conds.append(c)
    return conds
def cond(e,env,T):
    k=e[0]
    if k=='false': return 'false'
    if k=='true': return 'true'
    if k=='mac':
        a=e[2]
        if e[1] in('assert_eq','assert_ne'):
            l,r=ex(a[0],env),ex(a[1],env)
            if isinstance(l,tuple) and l[0]=='OK':
                T.n+=1; nm='m'+(str(T.n) if T.n>1 else ''); T.obl.append([l[0],l[1],nm,[]]); l=nm
            if a[0][0]=='field' and a[0][2]=='0' and e[1]=='assert_eq':
                return 'same %s (.mk %s)'%(ex(a[0][1],env),r)
            return ('same %s %s' if e[1]=='assert_eq' else '!(same %s %s)')%(atom(l),atom(r))
        if e[1]=='assert': return cond(a[0],env,T)
        raise Unsupported('mac '+e[1])
    if k=='match':
        x=ex(e[1],env); out=[]
        for p,b in e[2]:
            env2=dict(env)
            for v in binds(p): env2.pop(v,None)
            ps=p[1] if p[0]=='or' else [p]
            cs=conj(cond(b,env2,T))
            for pp in ps:
                if pp[0]=='bind' and cs=='false': pp=('_',)
                out.append('\x01| %s => %s'%(pat(pp),cs))
        return '(\x02match %s with %s\x03)'%(x,' '.join(out))
    if k=='block':
        cs=stmts(e[1],dict(env),T)
        return cs
    if k=='bin' and e[1]=='&&': return conj([cond(e[2],env,T),cond(e[3],env,T)])
    return ex(e,env)
def binds(p):
    if p[0]=='bind': return [p[1]]
    if p[0]=='pc': return [v for x in p[2] for v in binds(x)]
    if p[0]=='ps': return [v for _,x in p[2] for v in binds(x)]
    if p[0]=='or': return binds(p[1][0])
    return []
def conj(c):
    if isinstance(c,list): return ' && '.join(x if isinstance(x,str) else conj(x) for x in c) if c else 'true'
    return c
def atom(s): return s if re.match(r'^[\w.]+$',s) or s[0] in'([{«' else '(%s)'%s
def wraplines(s,w=98):
    out=[];cur='';d=0;stack=[]
    # \x02 enters a match, \x01 starts an alternative (or a field of a record update), \x03 leaves
    ind=4
    for tok in re.split(r'( )',s):
        for c in tok:
            if c=='\x02': stack.append(ind); ind+=2
            if c=='\x03' and stack: ind=stack.pop()
        new='\x01' in tok
        t=re.sub('[\x01\x02\x03]','',tok)
        if new: out.append(cur.rstrip()); cur=' '*ind+t; continue
        if len(cur)+len(t)>w and t!=' ': out.append(cur.rstrip()); cur=' '*(ind+4)
        cur+=t
    out.append(cur); return '\n'.join(x for x in out)
def translate(path):
    src=open(REPO+path).read(); res=[]; skipped=[]
    for m in re.finditer(r'#\[test\]\n(?:\s*//[^\n]*\n)*fn (\w+)\(\) ',src):
        name=m.group(1); ln=src.count('\n',0,m.end())+1
        # find block end
        i=m.end(); d=0
        toks=tokenize(src[i:src.find('\n}\n',i)+2])
        try:
            b=P(toks).block(); T_=T(); env={}
            # segments: each decode introduces an obligation that gets the following conditions
            flat=[]
            for st in b[1]:
                before=len(T_.obl)
                cs=stmts([st],env,T_)
                if T_.obl:
                    tgt=T_.obl[-1]
                    tgt[3]+=cs
                elif cs: raise Unsupported('conditions without decode')
            res.append((name,ln,T_.obl))
        except Unsupported as u: skipped.append((name,ln,str(u)))
    return res,skipped
HEAD='''import Verif.Check.Base

/-! Generated by tools/gen_tests.py from /repo/%s: the project's own tests, run on the model by the
kernel.  These are not claims; they are checks that the model is a model of this code. -/

namespace Wadec.Check
open Wadec

set_option maxRecDepth 100000

'''
def emit(path,items,out):
    L=[HEAD%path]
    for name,ln,obl in items:
        for kind,x,nm,cs in obl:
            if isinstance(x,tuple) and x[0]=='BYTES': bs,f=x[1],None
            else: bs,f=bytesOf(x)
            body=conj(cs)
            L.append('/-- %s:%d `%s`%s -/\n'%(path,ln,name,', input '+f if f else ''))
            L.append('example : %s %s\n    (fun %s =>\n    %s) = true := by decide +kernel\n\n'%('onOk' if kind=='OK' else 'onErr',wraplines('['+', '.join(map(str,bs))+']'),nm,wraplines(body)))
    L.append('end Wadec.Check\n')
    open(OUT+out,'w').write(''.join(L))
def special():
    """the tests that collect discriminants (`seen == expected`) or filter a body"""
    src=open(REPO+'tests/tests.rs').read()
    L=[HEAD%'tests/tests.rs']
    def fn(name):
        i=src.index('fn %s()'%name); return src[i:src.index('\n}\n',i)],src.count('\n',0,i)+1
    for name,tail in [('it_decodes_memarg_with_memidx_for_loads_and_stores',True),('it_decodes_simd_memarg_with_memidx',True),('it_decodes_numeric_instructions',False)]:
        b,ln=fn(name)
        path=re.search(r'File::open\("([^"]+)"',b).group(1)
        bs=list(open(os.path.join(REPO,path),'rb').read())
        listed=re.findall(r'Instruction::(\w+)',b[:b.index('let expected')])
        exp=re.findall(r'Instruction::(\w+)',b[b.index('let expected'):])
        assert set(listed)==set(exp) and len(exp)==len(set(exp))
        L.append('/-- %s:%d `%s`, input %s: the expected instructions are the\nlisted ones, so each of them must occur%s. -/\n'%('tests/tests.rs',ln,name,path,', and only with memory index 1' if tail else ''))
        alts=[]
        for k,n in enumerate(exp):
            f=FAM.get(fam.get(n,''),None)
            m={'mem':'.mem .%s m'%n,'memLane':'.memLane .%s m _'%n,'plain':'.plain .%s'%n,None:'.%s _'%n}[f]
            alts.append('    | %s => some (%d, %s)'%(m,k,'m.mem_idx' if tail else '⟨1⟩'))
        L.append('def kind_%s : Instr → Option (Nat × MemIdx)\n%s\n    | _ => none\n\n'%(name,'\n'.join(alts)))
        L.append('example : onOk %s\n    (fun m => %slet seen := %s.filterMap kind_%s\n      (List.range %d).all (fun k => seen.any (fun p => p.1 == k)) &&\n      seen.all (fun p => same p.2 ⟨1⟩)) = true := by decide +kernel\n\n'%(wraplines('['+', '.join(map(str,bs))+']'),'same m.mems.length 2 && ' if tail else '','m.funcs[0]!.body' if tail else '(m.funcs.flatMap (·.body))',name,len(exp)))
    name='it_decodes_relaxed_simd_instructions'
    b,ln=fn(name); path=re.search(r'File::open\("([^"]+)"',b).group(1)
    bs=list(open(os.path.join(REPO,path),'rb').read())
    listed=re.findall(r'Instruction::(\w+) =>',b)
    exp=re.findall(r'Instruction::(\w+)',b[b.index('assert_eq!(\n        relaxed'):])
    L.append('/-- %s:%d `%s`, input %s -/\n'%('tests/tests.rs',ln,name,path))
    L.append('example : onOk %s\n    (fun m => same m.funcs.length 1 && same m.funcs[0]!.locals (List.replicate 3 (.Vec .V128)) &&\n      same (m.funcs[0]!.body.filterMap (fun i => match i with\n%s\n        | _ => none))\n        [%s]) = true := by decide +kernel\n\n'%(wraplines('['+', '.join(map(str,bs))+']'),'\n'.join('        | .plain .%s => some PlainOp.%s'%(n,n) for n in listed),wraplines(', '.join('PlainOp.'+n for n in exp),80)))
    L.append('end Wadec.Check\n')
    open(OUT+'Special.lean','w').write(''.join(L))
if __name__=='__main__':
    special()
    r,s=translate('tests/tests.rs'); print(len(r),'skipped',s); emit('tests/tests.rs',r,'Modules.lean')
    r2,s2=translate('tests/error_types.rs'); print(len(r2),'skipped',s2)
    emit('tests/error_types.rs',r2[:61],'Errors1.lean'); emit('tests/error_types.rs',r2[61:],'Errors2.lean')
