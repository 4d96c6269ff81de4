"""Generates lean/Verif/Model/DebugCore.lean and lean/Verif/Model/DebugErrors.lean: the derived `Debug` of the types of
/repo/src/core and of the error types of /repo/src/decode."""
import re,glob,os,sys,io,contextlib
REPO=os.environ.get('REPO','/repo')
OUT=os.environ.get('OUT','/verif/lean/Verif')
def strip_comments(t):
    return re.sub(r'//[^\n]*','',t)
def split_args(s):
    out=[];d=0;cur=''
    for c in s:
        if c in '([<{': d+=1
        if c in ')]>}': d-=1
        if c==',' and d==0: out.append(cur);cur=''
        else: cur+=c
    if cur.strip(): out.append(cur)
    return [x.strip() for x in out]
items={}  # name -> (file, a, b, kind, variants)
def parse_fields(body,paren):
    """list of (name or None, type)"""
    r=[]
    for a in split_args(body):
        a=re.sub(r'#\[[^\]]*\]','',a).strip()
        a=re.sub(r'^pub(\([a-z]+\))? ','',a)
        if paren=='{':
            n,t=a.split(':',1); r.append((n.strip().replace('r#',''),t.strip()))
        else: r.append((None,a))
    return r
for f in sorted(glob.glob(REPO+'/src/core/**/*.rs',recursive=True)):
    t=open(f).read()
    code=re.sub(r'//[^\n]*',lambda m:' '*len(m.group(0)),t)
    rel=f[len(REPO)+1:]
    for m in re.finditer(r'#\[derive\(([^)]*)\)\]\s*pub (enum|struct) (\$?\w+)',code):
        assert 'Debug' in m.group(1),(f,m.group(0))
        rest=code[m.end():]
        o=re.match(r'\s*([({])',rest).group(1)
        c={'(':')','{':'}'}[o]
        d=0
        for i,ch in enumerate(rest):
            if ch==o:d+=1
            if ch==c:
                d-=1
                if d==0:break
        body=rest[rest.index(o)+1:i]
        a=t.count('\n',0,m.start())+1; b=a+code[m.start():m.end()+i].count('\n')
        name=m.group(3)
        if m.group(2)=='struct': val=('struct',[(name,o,parse_fields(body,o))])
        else:
            vs=[]
            for v in split_args(body):
                vm=re.match(r'(\w+)\s*(?:([({])(.*)[)}])?$',v,re.S)
                vs.append((vm.group(1),vm.group(2),parse_fields(vm.group(3),vm.group(2)) if vm.group(2) else []))
            val=('enum',vs)
        if name in items and rel.endswith('memtype.rs'): continue
        if rel.endswith('memtype.rs') and name!='MemType': continue
        items[name]=(rel,a,b)+val
    if re.search(r'impl\b.*\bDebug for',code): sys.exit('hand-written Debug in '+rel)
# the index types
idx=open(REPO+'/src/core/indices.rs').read()
IDX=re.findall(r'define_index_type!\((\w+)\);',idx)
rel,a,b,_,vs=items.pop('$name')
for n in IDX: items[n]=(rel,a,b,'struct',[(n,'(',vs[0][2])])
# Lean side
lean=open('/verif/lean/Verif/Core/Types.lean').read()+open('/verif/lean/Verif/Core/Syntax.lean').read()
ops=open('/verif/lean/Verif/Core/Ops.lean').read()
def lean_struct(n):
    m=re.search(r'^structure '+n+r' where (\w+) :',lean,re.M)
    if m: return [m.group(1)]
    m=re.search(r'^structure '+n+r' where\n((?:  \w+ : .*\n)+)',lean,re.M)
    return re.findall(r'^  (\w+) :',m.group(1),re.M)
def lean_ops(n):
    m=re.search(r'^inductive '+n+r' where\n(.*?)^  deriving',ops,re.M|re.S)
    return re.findall(r'\| «?(\w+)»?',m.group(1))
OPS={n:lean_ops(n) for n in ['PlainOp','MemOp','MemLaneOp','LaneOp']}
opof={v:n for n,vs in OPS.items() for v in vs}
LEANTY={'u8':'UInt8','u32':'UInt32','u64':'UInt64','i32':'Int32','i64':'Int64','bool':'Bool','String':'Str','f32':'UInt32','f64':'UInt64'}
def node(name,o,args):
    """args: list of (field, expr)"""
    if not args: return f'.word "{name}"'
    if o=='(': return f'.tuple "{name}" [{", ".join(e for _,e in args)}]'
    return f'.struct "{name}" [{", ".join(chr(40)+chr(34)+n+chr(34)+", "+e+")" for n,e in args)}]'
HEAD='''import Verif.Model.Debug

/-! Generated by tools/gen_debug.py from /repo/src/core: what the derived `Debug` impls tell the formatter. -/

namespace Wadec

'''
out=HEAD
KW={'Type','Import','Global','Export','Prefix'}
def ctor(v): return v
order=IDX+['AddrType','NumType','VecType','AbsHeapType','HeapType','RefType','ValType','Mut','GlobalType','PackType','StorageType','FieldType','CompType','SubType','RecType','Limits','MemType','TableType','TagType','ExternType','Memarg','LaneIdx','BlockType','Catch','Import','ExternIdx','Export','SectionKind','SectionHeader','CustomSection','Instruction','Func','Global','DataMode','Data','ElemMode','Elem','Table','Module']
assert set(order)==set(items),(set(order)^set(items))
def expr(t,x):
    t=t.replace('indices::','')
    if 'Instruction' in t or t=='Expr': return f'.list (instrsDbg t {x})'
    if t=='Vec<Expr>': return f'.list ({x}.map fun e => .list (instrsDbg t e))'
    return f'dbg t {x}'
for n in order:
    rel,a,b,kind,vs=items[n]
    if n=='Instruction': 
        for on,ov in OPS.items():
            out+=f"/-- the names of the variants ({rel}:{a}-{b}) -/\ndef {on}.text : {on} → String\n"
            for v in ov: out+=f'  | .{v} => "{v}"\n'
            out+='\n'
        # check grouping
        exp={'PlainOp':[],'MemOp':['Memarg'],'MemLaneOp':['Memarg','LaneIdx'],'LaneOp':['LaneIdx']}
        cs=''
        for v,o,fs in vs:
            ts=[t.replace('indices::','') for _,t in fs]
            if v in opof: assert ts==exp[opof[v]] and o in(None,'('),(v,ts); continue
            assert ts not in exp.values(),(v,ts)
            m=re.search(r'^  \| '+v+r'((?: \([^)]*\)+)*)$',lean[lean.index('inductive Instr where'):],re.M)
            m=re.search(r'^  \| '+v+r'( .*)?$',lean[lean.index('inductive Instr where'):],re.M)
            names=[]
            for g in re.findall(r'\(([\w ]+) :',m.group(1) or ''): names+=g.split()
            assert len(names)==len(fs),(v,names,fs)
            args=[]
            for nm,t in zip(names,ts):
                if t=='Vec<Instruction>': e=f'.list (instrsDbg t {nm})'
                elif t=='Option<Vec<Instruction>>': e=f'instrsOptDbg t {nm}'
                elif t=='f32': e=f'.word (t.f32 {nm})'
                elif t=='f64': e=f'.word (t.f64 {nm})'
                elif t=='[LaneIdx; 16]': e=f'dbg t ({nm}.val.map LaneIdx.mk)'
                elif t=='[u8; 16]': e=f'dbg t {nm}'
                else:
                    assert re.match(r'[\w<>]+$',t),t
                    e=f'dbg t {nm}'
                args.append((None,e))
            cs+=f'  | .{v} {" ".join(names)} => {node(v,o,args)}\n'
        assert set(opof)<=set(v for v,_,_ in vs)
        out+=f'''mutual
/-- {rel}:{a}-{b} -/
def Instr.dbg (t : StdText) : Instr → Dbg
  | .plain op => .word op.text
  | .mem op m => .tuple op.text [Debug.dbg t m]
  | .memLane op m l => .tuple op.text [Debug.dbg t m, Debug.dbg t l]
  | .lane op l => .tuple op.text [Debug.dbg t l]
'''+re.sub(r'(?<![\w.])dbg t ','Debug.dbg t ',cs)+f'''/-- `Vec<Instruction>` ({rel}:{a}-{b}) -/
def instrsDbg (t : StdText) : List Instr → List Dbg
  | [] => []
  | i :: is => i.dbg t :: instrsDbg t is
/-- `Option<Vec<Instruction>>` ({rel}:{a}-{b}) -/
def instrsOptDbg (t : StdText) : Option (List Instr) → Dbg
  | none => .word "None"
  | some is => .tuple "Some" [.list (instrsDbg t is)]
end

'''
        continue
    if kind=='struct':
        v,o,fs=vs[0]
        ln=lean_struct(n)
        assert len(ln)==len(fs),(n,ln,fs)
        for l,(r,_) in zip(ln,fs): assert r is None or l==r,(n,l,r)
        body=node(n,o,[(r,expr(t,f'x.{l}')) for l,(r,t) in zip(ln,fs)])
        out+=f"/-- {rel}:{a}-{b} -/\ninstance : Debug {n} := ⟨fun t x => {body}⟩\n\n"
    else:
        cs=''
        used=False
        for v,o,fs in vs:
            xs=[f'x{i}' for i in range(len(fs))] if len(fs)>1 else (['x'] if fs else [])
            used|=bool(fs)
            cs+=f'    | .{" ".join([v]+xs)} => {node(v,o,[(r,expr(t,x)) for x,(r,t) in zip(xs,fs)])}\n'
        out+=f"/-- {rel}:{a}-{b} -/\ninstance : Debug {n} where\n  dbg {'t' if used else '_'}\n{cs}\n"
out+='end Wadec\n'
open(OUT+'/Model/DebugCore.lean','w').write(out)

# errors: reuse the parser of gen_errors.py
src=open('/verif/tools/gen_errors.py').read().split('skip=set()')[0].replace("'/repo/","'"+REPO+"/")
env={}
exec(src,env)
errs,eorder=env['errs'],env['order']
helpers=open(REPO+'/src/decode/helpers.rs').read()
i=helpers.index('impl<E: std::fmt::Debug>'); j=helpers.index('\n}\n',i)
hand=re.sub(r'\s+',' ',helpers[i:j+2])
WANT='''impl<E: std::fmt::Debug> std::fmt::Debug for DecodeListError<E> { fn fmt(&self, f: &mut std::fmt::Formatter<'_>) -> std::fmt::Result { match self { Self::DecodeLength(e) => f.debug_tuple("DecodeLength").field(e).finish(), Self::ParseElement { position, source } => f .debug_struct("ParseElement") .field("position", position) .field( "source", &format_args!( "{}::{source:#?}", std::any::type_name::<E>() .rsplit("::") .next() .unwrap_or_else(|| std::any::type_name::<E>()) ), ) .finish(), } } }'''
if hand.strip()!=WANT: sys.exit('the Debug of DecodeListError has changed')
ha=helpers.count('\n',0,i)+1; hb=ha+helpers[i:j+2].count('\n')
for f in glob.glob(REPO+'/src/decode/**/*.rs',recursive=True):
    if len(re.findall(r'impl\b[^\n]*\bDebug for',open(f).read()))!=(1 if f.endswith('decode/helpers.rs') else 0): sys.exit('hand-written Debug in '+f)
out='''import Verif.Model.DebugCore

/-! Generated by tools/gen_debug.py from /repo/src/decode: what the `Debug` impls of the error types, derived but
for `DecodeListError`, tell the formatter. -/

namespace Wadec

'''
listed=set()
for k in eorder:
    for v,args,at in errs[k][3]:
        for _,t,_ in args:
            m=re.match(r'\(DecodeListError (\w+)\)$',t)
            if m: listed.add(m.group(1))
for k in eorder:
    f,(a,b),g,vs=errs[k]
    if k=='DecodeListError':
        out+=f'''/-- src/decode/{f}:{ha}-{hb} -/
instance {{E : Type}} [Debug E] [TypeName E] : Debug (DecodeListError E) where
  dbg t
    | .DecodeLength e => .tuple "DecodeLength" [dbg t e]
    | .ParseElement position source => .struct "ParseElement" [("position", dbg t position),
        ("source", .path (typeName E) (dbg t source))]

'''
        continue
    cs='';used=False
    for v,args,at in vs:
        if k=='DecodeModuleError' and v=='DecodeDataCount':
            cs+='    | .DecodeDataCount => .tuple "DecodeDataCount" [.tuple "TryFromIntError" [.unit]]\n'; continue
        xs=[f'x{i}' for i in range(len(args))] if len(args)>1 else (['x'] if args else [])
        used|=bool(args)
        named=[fl for fl,_,_ in args]
        assert all(named) or not any(named)
        o='{' if args and named[0] else '('
        cs+=f'    | .{" ".join([v]+xs)} => {node(k if v=="mk" else v,o,[(fl,f"dbg t {x}") for x,(fl,_,_) in zip(xs,args)])}\n'
    out+=f"/-- src/decode/{f}:{a}-{b} -/\ninstance : Debug {k} where\n  dbg {'t' if used else '_'}\n{cs}\n"
    if k in listed: out+=f'/-- the name of the type, src/decode/{f}:{a}-{b} -/\ninstance : TypeName {k} := ⟨"{k}"⟩\n\n'
out+='end Wadec\n'
open(OUT+'/Model/DebugErrors.lean','w').write(out)
