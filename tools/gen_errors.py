"""Generates lean/Verif/Model/Errors.lean and lean/Verif/Model/Display.lean from the error types of /repo/src/decode (thiserror enums)."""
import re,glob,os
files=['integer.rs','indices.rs','helpers.rs']+sorted('types/'+os.path.basename(f) for f in glob.glob('/repo/src/decode/types/*.rs'))+['instructions.rs']+sorted('sections/'+os.path.basename(f) for f in glob.glob('/repo/src/decode/sections/*.rs'))+['module.rs']
TY={'io::Error':'IoError','std::io::Error':'IoError','u8':'UInt8','u32':'UInt32','i64':'Int64','u64':'UInt64','usize':'Nat','SectionKind':'SectionKind','[u8; 8]':'List UInt8','std::string::FromUtf8Error':'FromUtf8Error','E':'E'}
STR=[]  # string literals of enum bodies
MSG={}  # (type, variant) -> argument text of #[error(...)]
errs={}   # name -> (file, lines, generic, variants[(name,[(field,ty,attrs)],errattr)])
def ty(t):
    t=t.strip()
    t=re.sub(r'^instructions::','',t)
    m=re.match(r'DecodeListError<(.*)>$',t)
    if m: return f'(DecodeListError {ty(m.group(1))})'
    return TY.get(t,t)
def split_args(s):
    out=[];d=0;cur=''
    for c in s:
        if c in '([<{': d+=1
        if c in ')]>}': d-=1
        if c==',' and d==0: out.append(cur);cur=''
        else: cur+=c
    if cur.strip(): out.append(cur)
    return out
for f in files:
    text=open('/repo/src/decode/'+f).read()
    cut=text.find('#[cfg(test)]')
    if cut>=0: text=text[:cut]
    # enums
    for m in re.finditer(r'#\[derive\((?:Debug, )?Error(?:, Debug)?\)\]\n((?:#\[error\([^]]*\)\]\n)?)pub (enum|struct) (\w+)(<E>)?',text):
        name=m.group(3)
        start=text.count('\n',0,m.start())+1
        whole_transparent=False
        rest=text[m.end():]
        if m.group(2)=='struct':
            if 'macro_rules' in text and '$errorname' in text[m.start():m.end()+3]: continue
            mm=re.match(r'\((.*?)\);',rest)
            if not mm: continue
            end=start+text[m.start():m.end()+mm.end()].count('\n')
            MSG[name,'mk']=re.search(r'#\[error\((.*)\)\]',m.group(1),re.S).group(1)
            errs[name]=(f,(start,end),False,[('mk',[parse] if False else [mm.group(1)],'msg')])
        else:
            # find closing brace
            d=0
            for i,c in enumerate(rest):
                if c=='{': d+=1
                if c=='}':
                    d-=1
                    if d==0: break
            body=rest[rest.index('{')+1:i]
            end=start+text[m.start():m.end()+i].count('\n')
            # strip string literals
            body=re.sub(r'//.*','',body)
            def keep(mm):
                STR.append(mm.group(0)[1:-1]); return '"@%d@"'%(len(STR)-1)
            body=re.sub(r'"(?:[^"\\]|\\.)*"',keep,body)
            vs=[]
            # split on top-level commas keeping attributes
            for item in split_args(body):
                item=item.strip()
                if not item: continue
                attr='msg'
                enum_level = 'error(' in m.group(1)
                am=re.match(r'#\[error\(',item)
                if am:
                    d=0
                    for j,c in enumerate(item):
                        if c=='[': d+=1
                        if c==']':
                            d-=1
                            if d==0: break
                    if 'transparent' in item[:j+1]: attr='transparent'
                    text_=re.sub(r'@(\d+)@',lambda q:STR[int(q.group(1))],item[:j+1].strip()[8:-2])
                    item=item[j+1:].strip()
                else: text_=re.search(r'#\[error\((.*)\)\]',m.group(1),re.S).group(1)
                vm=re.match(r'(\w+)\s*(\(|\{)?(.*?)[\)\}]?$',item,re.S)
                vname=vm.group(1)
                MSG[name,vname]=text_
                args=split_args(vm.group(3)) if vm.group(2) else []
                vs.append((vname,[a.strip()for a in args],attr))
            errs[name]=(f,(start,end),bool(m.group(4)),vs)
# indices macro
for idx in ['TypeIdx','FuncIdx','TableIdx','MemIdx','GlobalIdx','ElemIdx','DataIdx','LocalIdx','LabelIdx','TagIdx']:
    MSG[f'Decode{idx}Error','mk']=f'"failed decoding {idx} index"'
    errs[f'Decode{idx}Error']=('indices.rs',(13,16),False,[('mk',['#[from] pub DecodeU32Error'],'msg')])
def parse_arg(a):
    a=a.strip()
    frm='#[from]' in a or '#[source]' in a
    a=re.sub(r'#\[\w+\]','',a).strip()
    a=re.sub(r'^pub ','',a)
    m=re.match(r'(\w+): (.*)$',a)
    fld=None
    if m: fld,a=m.group(1),m.group(2)
    if fld=='source': frm=True
    return fld,ty(a),frm
for k,(f,l,g,vs) in errs.items():
    errs[k]=(f,l,g,[(v,[parse_arg(a) for a in args],at) for v,args,at in vs])
# topological order
order=[];seen=set()
def deps(k):
    for v,args,at in errs[k][3]:
        for _,t,_ in args:
            for w in re.findall(r'\w+',t):
                if w in errs and w!=k: yield w
def visit(k):
    if k in seen: return
    seen.add(k)
    for d in deps(k): visit(d)
    order.append(k)
for k in errs: visit(k)
skip=set()
out="""import Verif.Model.Io
import Verif.Core.Syntax

/-! Generated by tools/gen_errors.py from the error types of /repo/src/decode: one inductive type
per Rust error enum/struct, same variants, same payloads.

For each type, `ErrInfo` gives
* `root`: the `io::Error` the value contains, if any (following all payloads);
* `shown`: the `io::Error` that appears in the displayed chain of causes, i.e. what a caller
  following `std::error::Error::source()` finds: thiserror makes a payload a source only if the
  variant is `#[error(transparent)]` or the field is `#[from]`, `#[source]` or named `source`;
* `murky`: true for `BlockTypeError::NegativeTypeIndex(-29 | -28)`, which `BlockType::decode`
  (src/decode/instructions.rs:1085-1112) also returns when an I/O error was swallowed, and for
  every error containing such a value. -/

namespace Wadec

/-- `std::string::FromUtf8Error` (in src/decode/helpers.rs:171): the bytes, `Utf8Error::valid_up_to()` and `error_len()`. -/
structure FromUtf8Error where
  bytes : List UInt8
  valid_up_to : Nat
  error_len : Option Nat
  deriving DecidableEq, Repr

/-- Root cause information of an error type: what the `#[from]`, `#[source]` and `#[error(transparent)]`
attributes of the `Error` derives in src/decode/**/*.rs make of its payloads. -/
class ErrInfo (ε : Type) where
  /-- the `io::Error` contained in the error, if there is one -/
  root : ε → Option IoError
  /-- the `io::Error` found in the `source()` chain, if there is one -/
  shown : ε → Option IoError
  /-- errors which may stand for a swallowed I/O error (`BlockType::decode`) -/
  murky : ε → Bool

/-- `std::io::Error` (in src/decode/**/*.rs) -/
instance : ErrInfo IoError where
  root e := some e
  shown e := some e
  murky _ := false

/-- `std::string::FromUtf8Error` (in src/decode/helpers.rs:171) -/
instance : ErrInfo FromUtf8Error where
  root _ := none
  shown _ := none
  murky _ := false

"""
LEAF={'UInt8','UInt32','Int64','UInt64','Nat','SectionKind','List UInt8'}
def kw(n): return n
for k in order:
    f,(a,b),g,vs=errs[k]
    out+=f"/-- src/decode/{f}:{a}-{b} -/\ninductive {k}{' (E : Type)' if g else ''} where\n"
    pats=[]
    for v,args,at in vs:
        s=f"  | {v}"
        if k=='DecodeModuleError' and v=='DecodeDataCount': args=[]
        for i,(fld,t,fr) in enumerate(args):
            s+=f" ({fld or ('e' if t not in LEAF else 'x')} : {t})"
        out+=s+"\n"
        subs=[(i,t,fr) for i,(fld,t,fr) in enumerate(args) if t not in LEAF]
        assert len(subs)<=1,(k,v)
        pats.append((v,len(args),subs[0] if subs else None,at))
    out+="  deriving DecidableEq, Repr\n\n"
    hdr=f"instance {'{E : Type} [ErrInfo E] ' if g else ''}: ErrInfo {'('+k+' E)' if g else k} where\n"
    def mkfun(name,leaf,func):
        r=""
        for v,n,sub,at in pats:
            if sub is None: r+=f"    | .{v}{' _'*n} => {leaf(v)}\n"
            else:
                names=['_']*n; 
                rhs=func(v,sub,at)
                if 'e' in re.findall(r'\be\b',rhs): names[sub[0]]='e'
                r+=f"    | .{v} {' '.join(names)} => {rhs}\n"
        return f"  {name}\n"+r
    out+=f"/-- attributes at src/decode/{f}:{a}-{b} -/\n"+hdr
    out+=mkfun('root',lambda v:'none',lambda v,s,at:'ErrInfo.root e')
    out+=mkfun('shown',lambda v:'none',lambda v,s,at:'ErrInfo.shown e' if (at=='transparent' or s[2]) else 'none')
    if k=='BlockTypeError':
        out+="  murky\n    | .NegativeTypeIndex x => x == -29 || x == -28\n    | _ => false\n"
    else:
        out+=mkfun('murky',lambda v:'false',lambda v,s,at:'ErrInfo.murky e')
    out+="\n"
out+="end Wadec\n"
open('/verif/lean/Verif/Model/Errors.lean','w').write(out)
print(len(order)); print([ (k,[v[0] for v in errs[k][3]]) for k in order])

# ---- Display.lean
VAR={}
def enum_variants(path,name):
    t=open(path).read(); m=re.search(r'pub enum '+name+r' \{(.*?)\n\}',t,re.S)
    return re.findall(r'^    (\w+)',re.sub(r'//.*','',m.group(1)),re.M)
d="""import Verif.Model.Errors
import Verif.Model.Module

/-! Generated by tools/gen_errors.py from the `#[error(..)]` attributes of /repo/src/decode.

`ErrText.chain io e` is what `wadec-cli` (and every caller that follows `std::error::Error::source()`)
shows of an error: the `Display` text of `e`, of `e.source()`, of its source, and so on.  thiserror
gives a variant the source in its `#[from]`/`#[source]`/`source` field; `#[error(transparent)]`
forwards both `Display` and `source()` to the payload; all other payloads are not sources.
`io` gives the chain of an `io::Error`, about which the code knows nothing. -/

namespace Wadec

/-- std's formatting for the `{:#04X}`, `{:#X?}` in the `#[error(..)]` attributes of src/decode/**/*.rs:
`{:X}` of a number, without leading zeros -/
def upperHex (n : Nat) : String := String.ofList ((Nat.toDigits 16 n).map Char.toUpper)

/-- `{:#04X}` (e.g. src/decode/module.rs:77): `0x` and at least two upper case digits -/
def hex04 (n : Nat) : String := if n < 16 then "0x0" ++ upperHex n else "0x" ++ upperHex n

/-- `{:#X?}` (src/decode/module.rs:358) of a byte array: one element per line -/
def hexArray (bs : List UInt8) : String :=
  if bs.isEmpty then "[]"
  else "[\\n" ++ String.join (bs.map fun b => "    0x" ++ upperHex b.toNat ++ ",\\n") ++ "]"

/-- src/decode/mod.rs:29-35 `FromMarkerByte::markers_formatted` -/
def markersFormatted {α : Type} (name : α → String) (markers : List (UInt8 × α)) : String :=
  ", ".intercalate (markers.map fun (b, v) => hex04 b.toNat ++ " (" ++ name v ++ ")")

"""
for path,name,lines in [('/repo/src/core/module.rs','SectionKind',''),('/repo/src/core/types/heaptype.rs','AbsHeapType',''),('/repo/src/core/types/globaltype.rs','Mut',''),('/repo/src/core/types/comptype.rs','PackType','')]:
    import subprocess
    p=subprocess.run(['grep','-rln','pub enum '+name+' {','/repo/src'],capture_output=True,text=True).stdout.split()[0]
    vs=enum_variants(p,name)
    t=open(p).read(); i=t.index('pub enum '+name+' {'); a=t.count(chr(10),0,i)+1; b=a+t[i:].split('\n}')[0].count(chr(10))+1
    d+=f"/-- derived `Debug` of `{name}` ({p[6:]}:{a}-{b}) -/\ndef {name}.debug : {name} → String\n"
    for v in vs: d+=f'  | .{v} => "{v}"\n'
    d+="\n"
d+="""/-- The text of an error and of its sources: `Display` and `source()` as derived by thiserror from the
`#[error(..)]`, `#[from]` and `#[source]` attributes in src/decode/**/*.rs. -/
class ErrText (ε : Type) where
  chain : (IoError → List String) → ε → List String

/-- `std::io::Error` (in src/decode/**/*.rs) -/
instance : ErrText IoError where
  chain io e := io e

/-- `Display` of `std::string::FromUtf8Error` (that of `Utf8Error`; in
src/decode/helpers.rs:171); it has no source -/
instance : ErrText FromUtf8Error where
  chain _ e := [match e.error_len with
    | some n => "invalid utf-8 sequence of " ++ toString n ++ " bytes from index " ++ toString e.valid_up_to
    | none => "incomplete utf-8 byte sequence from index " ++ toString e.valid_up_to]

"""
NAMED={'Mut::markers_formatted()':'markersFormatted Mut.debug Mut.markers','PackType::markers_formatted()':'markersFormatted PackType.debug PackType.markers','AbsHeapType::markers_formatted()':'markersFormatted AbsHeapType.debug AbsHeapType.markers','SectionKind::markers_formatted()':'markersFormatted SectionKind.debug SectionKind.markers','TagType::MARKER_BYTE':('0x00','UInt8'),'EXPECTED_PREAMBLE':('EXPECTED_PREAMBLE','List UInt8')}
def fmt(k,v,args):
    parts=split_args(MSG[k,v].strip()) if not MSG[k,v].strip().startswith('"') else None
    m=re.match(r'\s*"(.*?)"\s*(?:,(.*))?$',MSG[k,v],re.S)
    text,named=m.group(1),m.group(2) or ''
    nm={}
    for a in named.split(','):
        if a.strip():
            x,y=a.split('=',1); nm[x.strip()]=y.strip()
    out=[];names=['_']*len(args)
    for piece in re.split(r'(\{[^}]*\})',text):
        if not piece: continue
        if piece[0]!='{': out.append('"%s"'%piece); continue
        ref,_,spec=piece[1:-1].partition(':')
        if ref in nm:
            val=NAMED[nm[ref]]
            if isinstance(val,str): out.append(val); assert spec==''; continue
            expr,t=val
        else:
            i=int(ref) if ref.isdigit() else [j for j,(fld,_,_) in enumerate(args) if fld==ref][0]
            names[i]='x%d'%i; expr=names[i]; t=args[i][1]
        if spec=='#04X': out.append(f'hex04 {expr}.toNat' if expr!='0x00' else 'hex04 0x00')
        elif spec=='#X?': out.append(f'hexArray {expr}')
        elif spec=='?': assert t=='SectionKind'; out.append(f'{expr}.debug')
        elif spec=='':
            out.append(f'toString {expr}.toInt' if t=='Int64' else f'toString {expr}' if t=='Nat' else f'toString {expr}.toNat')
        else: assert False,(k,v,piece)
    return names,' ++ '.join(out)
for k in order:
    f,(a,b),g,vs=errs[k]
    d+=f"/-- src/decode/{f}:{a}-{b} -/\ninstance {'{E : Type} [ErrText E] ' if g else ''}: ErrText {'('+k+' E)' if g else k} where\n  chain io\n"
    for v,args,at in vs:
        if k=='DecodeModuleError' and v=='DecodeDataCount': args=[]
        subs=[(i,t,fr) for i,(fld,t,fr) in enumerate(args) if t not in LEAF]
        if at=='transparent':
            assert len(args)==1
            d+=f"    | .{v} e => ErrText.chain io e\n"; continue
        names,expr=fmt(k,v,args)
        if subs and subs[0][2]:
            names[subs[0][0]]='e'
            d+=f"    | .{' '.join([v]+names)} => ({expr}) :: ErrText.chain io e\n"
        else:
            d+=f"    | .{' '.join([v]+names)} => [{expr}]\n"
    if not any('chain io e' in l for l in d.rsplit('chain io\n',1)[1].split('\n')):
        h,t=d.rsplit('chain io\n',1); d=h+'chain _\n'+t
    d+="\n"
d+="end Wadec\n"
open('/verif/lean/Verif/Model/Display.lean','w').write(d)
