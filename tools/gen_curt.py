"""Generates lean/Verif/Proof/Curt.lean: for every error type, in the order of Model/Display.lean, how long its messages (`Curt`) and
its debug text (`Terse`) can be, besides the texts of an `io::Error` and the bytes of an ill-formed name."""
import re,os
root=os.path.join(os.path.dirname(os.path.abspath(__file__)),'..','lean','Verif')
disp=open(root+'/Model/Display.lean').read()
errs=open(root+'/Model/Errors.lean').read()
debg=open(root+'/Model/DebugErrors.lean').read()
args={}; order={}
for m in re.finditer(r'^inductive (\w+)(?: \(E : Type\))? where\n((?:  \|.*\n)+)',errs,re.M):
    for v in re.finditer(r'\| (\w+)(.*)',m.group(2)):
        args[(m.group(1),v.group(1))]=[a.strip() for a in re.findall(r'\(\w+ : ((?:[^()]|\([^()]*\))*)\)',v.group(2))]
        order.setdefault(m.group(1),[]).append(v.group(1))
def strip(t):
    t=t.strip()
    while t.startswith('(') and t.endswith(')'): t=t[1:-1].strip()
    return t
carry={'FromUtf8Error','ParsePreambleError'}
def carries(t):
    t=strip(t)
    if t.startswith('DecodeListError'): return carries(t[len('DecodeListError'):])
    return t in carry
own={'IoError':0,'FromUtf8Error':100}
con={'IoError':(0,0,0),'FromUtf8Error':(300,12,2)}
for t in ('UInt8','UInt32','UInt64','Int64','SectionKind'): con[t]=(20,0,0)
def ownof(t):
    t=strip(t)
    if t.startswith('DecodeListError'): return ownof(t[len('DecodeListError'):])+62
    return own[t]
def conof(t):
    t=strip(t)
    if t.startswith('DecodeListError'):
        a,b,d=conof(t[len('DecodeListError'):]); return (130+a+4*b,b+3 if b else 5,max(d,1)+1)
    return con[t]
def conof(t):
    t=strip(t)
    if t.startswith('DecodeListError'):
        a,b,d=conof(t[len('DecodeListError'):]); return (130+a+4*b,b+4,max(d,1)+1)
    return con[t]
def chars(t): return '['+', '.join("'%s'"%c for c in t)+']'
def pieces(t):
    out=[]
    for q in re.findall(r'"(?:[^"\\]|\\.)*"|\+\+|(?:(?!\+\+)[^"])+',t):
        q=q.strip()
        if q and q!='++': out.append(q)
    return out
def piece(q,ty,var,pat):
    """proof of `Len k q`, k"""
    if q.startswith('"'): return '(.lit %s)'%chars(q[1:-1]),len(q)-2
    x=re.search(r'\bx(\d)\b',q)
    t=args[(ty,var)][int(x.group(1))] if x else None
    if q.startswith('markersFormatted'): return '(show Len 400 (%s) by decide +kernel)'%q,400
    if q.endswith('.debug'): return '(.kind _)',9
    if 'toInt' in q: return '(.int _)',20
    n={'UInt8':'8','UInt32':'32','UInt64':'64'}
    if q.startswith('hex04 0x00'): return '(.hex (by decide))',20
    if q.startswith('hex04'): return '(.hex%s _)'%n[t],20
    if q.startswith('toString'):
        if t=='Nat': return '(.nat hs)',20
        return '(.u%s _)'%n[t],20
    raise Exception(q)
def length(t,ty,var,pat):
    ps=[piece(q,ty,var,pat) for q in pieces(t)]
    r,k=ps[0]; r='Len'+r[2:-1] if r.startswith('(.') and len(ps)>0 else r
    if r.startswith('Len.') is False and r.startswith('Len'): r='Len.'+r[3:]
    for p,n in ps[1:]: r='Len.append (%s) %s'%(r,p); k+=n
    return r,k
out="""import Verif.Proof.CurtBase

/-! Generated by tools/gen_curt.py: how long the messages and the debug texts of errors are (C79), besides the texts of an
`io::Error` and the bytes of an ill-formed name.  Three instances per error type, in the order of Model/Display.lean. -/

set_option linter.unusedVariables false

namespace Wadec

open Spec

/-- the name of the type of an element's error -/
class Dubbed (ε : Type) [TypeName ε] : Prop where
  dubbed : Label 40 (typeName ε)

"""
dub=re.findall(r'instance : TypeName (\w+) :=',debg)
for m in re.finditer(r'^instance (\{E : Type\} \[ErrText E\] )?: ErrText (\(?[\w ]+\)?) where\n  chain (?:io|_)\n((?:    \|.*\n)+)',disp,re.M):
    ty=m.group(2).strip('()').split()[0]
    if ty in ('FromUtf8Error','IoError'): continue
    if ty=='DecodeListError':
        out+='''instance {E : Type} [Measured E] : Measured (DecodeListError E) := ⟨fun n e => match e with
  | .DecodeLength _ => True
  | .ParseElement _ e => sane n e⟩
instance {E : Type} [Measured E] [Bare E] : Bare (DecodeListError E) := ⟨fun n e => match e with
  | .DecodeLength _ => trivial
  | .ParseElement _ e => Bare.free n e⟩

instance {E : Type} [ErrText E] [Measured E] [Curt E] : Curt (DecodeListError E) where
  own := Curt.own E + 62
  curt io q n e hq hs := match e with
    | .DecodeLength e => Curt.cons (n := n) (e := e) hq (show sane n e from Bare.free n e) (Len.lit %s) (Nat.le_trans (show _ ≤ 62 by decide) (Nat.le_add_left _ _))
    | .ParseElement x0 e => Curt.cons (n := n) (e := e) hq (show sane n e from hs) (Len.append (Len.lit %s) (.u32 _)) (by show 62 + Curt.own E ≤ Curt.own E + 62; omega)

instance {E : Type} [Debug E] [TypeName E] [Measured E] [Terse E] [Dubbed E] : Terse (DecodeListError E) where
  a := 130 + Terse.a E + 4 * Terse.b E
  b := Terse.b E + 4
  d := max (Terse.d E) 1 + 1
  terse T u n e hu hs := match e with
    | .DecodeLength e => ((Terse.terse T u n e hu (Bare.free n e)).tuple (k := 12) (by decide)).mono
        (Nat.le_trans (show _ ≤ 130 by decide) (by rw [Nat.add_assoc]; exact Nat.le_add_right _ _))
        (Nat.le_trans (show _ ≤ 4 by decide) (Nat.le_add_left _ _)) (Nat.succ_le_succ (Nat.le_max_right _ _))
    | .ParseElement p e => (Squat.struct (Fixed.u32 T p) ((Terse.terse T u n e hu hs).path (Dubbed.dubbed (ε := E)))
        (k := 12) (k1 := 8) (k2 := 6) (by decide) (by decide) (by decide)).mono (by omega) (by omega) (Nat.succ_le_succ (Nat.le_max_left _ _))

'''%(chars('failed decoding vector length'),chars('failed parsing vector element at position '))
        continue
    # sane
    ca=any(carries(a) for v in order[ty] for a in args[(ty,v)]) or ty in ('ParsePreambleError','DecodeModuleError')
    if ca:
        carry.add(ty)
        out+='instance : Measured %s := ⟨fun n e => match e with\n'%ty
        full=True
        for v in order[ty]:
            a=args[(ty,v)]
            if any(carries(x) for x in a): out+='  | .%s e => sane n e\n'%v
            elif 'List UInt8' in a or 'Bytes' in a: out+='  | .%s b => b.length ≤ 8\n'%v
            elif 'Nat' in a: out+='  | .%s %s => %s\n'%(v,' '.join('x%d'%i if x=='Nat' else '_' for i,x in enumerate(a)),' ∧ '.join('x%d < 2 ^ 64'%i for i,x in enumerate(a) if x=='Nat'))
            else: out+='  | .%s%s => True\n'%(v,' _'*len(a))
        out=out.rstrip('\n')+'⟩\n\n'
    else: out+='instance : Measured %s := ⟨fun _ _ => True⟩\ninstance : Bare %s := ⟨fun _ _ => trivial⟩\n\n'%(ty,ty)
    # messages
    k=0; rows=[]
    for v in re.finditer(r'\| (\.\w+)(.*?) => (.*)',m.group(3)):
        rhs=v.group(3); pat=v.group(1)+v.group(2); var=v.group(1)[1:]
        if rhs.startswith('['):
            if ty=='ParsePreambleError' and var=='Unexpected':
                k=max(k,400); rows.append('    | .Unexpected b => unexpected_length hs\n'); continue
            p,n=length(rhs[1:-1],ty,var,pat)
            k=max(k,n)
            rows.append('    | %s => Curt.leaf (io := io) (%s) (by decide)\n'%(pat,p))
            continue
        t=args[(ty,var)][-1]
        h='hs' if carries(t) else 'Bare.free n e'
        if '::' in rhs:
            p,n=length(re.match(r'\((.*)\) :: ErrText',rhs).group(1),ty,var,pat)
            k=max(k,n+ownof(t))
            rows.append('    | %s => Curt.cons (n := n) (e := e) hq (show sane n e from %s) (%s) (by decide)\n'%(pat,h,p))
        else:
            k=max(k,ownof(t))
            rows.append('    | %s => Curt.same (n := n) (e := e) hq (show sane n e from %s) (by decide)\n'%(pat,h))
    own[ty]=k
    if ty=='ParsePreambleError':
        out+='''theorem unexpected_length {b : Bytes} {q : Nat} (h : b.length ≤ 8) :
    charsIn ["unexpected preamble: expected " ++ hexArray EXPECTED_PREAMBLE ++ "; got " ++ hexArray b] ≤ 400 + q :=
  Curt.leaf (io := fun _ => []) ((((Len.lit %s).append (show Len 120 (hexArray EXPECTED_PREAMBLE) by decide +kernel)).append (Len.lit %s)).append
    (Len.hexArray h)) (by decide)

'''%(chars('unexpected preamble: expected '),chars('; got '))
    out+='instance : Curt %s where\n  own := %d\n  curt io q n e hq hs := match e with\n'%(ty,k)+''.join(rows)+'\n'
    # debug
    md=re.search(r'^instance : Debug %s where\n  dbg t\n((?:    \|.*\n)+)'%ty,debg,re.M)
    A=B=D=0; rows=[]
    for v in re.finditer(r'\| \.(\w+)(.*?) => (.*)',md.group(1)):
        var,pat,rhs=v.group(1),'.'+v.group(1)+v.group(2),v.group(3)
        ar=args[(ty,var)]
        if rhs.startswith('.word'):
            a,b,d=len(var),0,0
            w=re.match(r'\.word "(\w+)"$',rhs).group(1); a=len(w)
            pr='((Fixed.word (k := %d) (by decide)).short).mono (by decide) (by decide) (by decide)'%a
        elif rhs.startswith('.tuple') and var!='DecodeDataCount':
            w=re.match(r'\.tuple "(\w+)" \[dbg t x\]$',rhs).group(1); t=ar[-1]
            if t in ('List UInt8','Bytes'): a0,b0,d0=130,9,0; inner='(Fixed.bytes8 T hs).short'
            else: a0,b0,d0=conof(t); inner='(Terse.terse T u n x hu %s)'%('hs' if carries(t) else '(Bare.free n x)')
            a,b,d=len(w)+9+a0+4*b0,b0+2,d0+1
            pr='(Squat.tuple (k := %d) (%s) (by decide)).mono (by decide) (by decide) (by decide)'%(len(w),inner)
        elif var=='DecodeDataCount':
            a,b,d=100,4,0
            pr='(Fixed.short (a := 100) (b := 4) ⟨by show (Dbg.tuple "DecodeDataCount" [.tuple "TryFromIntError" [.unit]]).pretty.length ≤ 100; decide, by show breaks (Dbg.tuple "DecodeDataCount" [.tuple "TryFromIntError" [.unit]]).pretty ≤ 4; decide⟩).mono (by decide) (by decide) (by decide)'
        else:
            w,fs=re.match(r'\.struct "(\w+)" \[(.*)\]$',rhs).groups()
            fn=re.findall(r'\("(\w+)", dbg t (\w+)\)',fs)
            def fx(i):
                t=ar[i]
                nats=[j for j,x in enumerate(ar) if x=='Nat']
                if t=='Nat': return '(Fixed.nat %s)'%('hs' if len(nats)==1 else 'hs.%d'%(1+nats.index(i)))
                return '(Fixed.%s T _)'%{'UInt8':'u8','UInt32':'u32','UInt64':'u64','SectionKind':'kind'}[t]
            ks=' '.join('(k%s := %d)'%('' if i==0 else i,len(x)) for i,x in enumerate([w]+[f for f,_ in fn]))
            lab=' (by decide)'*(len(fn)+1)
            S=len(w)+sum(len(f) for f,_ in fn)
            if ar[-1] in ('Nat','UInt8','UInt32','UInt64','SectionKind'):
                if len(fn)==2: a,b,d=S+60,3,0; pr='((Fixed.two %s %s %s%s).short).mono (by decide) (by decide) (by decide)'%(fx(0),fx(1),ks,lab)
                else: a,b,d=S+88,4,0; pr='((Fixed.three %s %s %s %s%s).short).mono (by decide) (by decide) (by decide)'%(fx(0),fx(1),fx(2),ks,lab)
            else:
                a0,b0,d0=conof(ar[1])
                a,b,d=S+40+a0+4*b0,b0+3,d0+1
                pr='(Squat.struct %s (Terse.terse T u n %s hu (Bare.free n _)) %s%s).mono (by decide) (by decide) (by decide)'%(fx(0),fn[1][1],ks,lab)
        A=max(A,a);B=max(B,b);D=max(D,d)
        rows.append('    | %s => %s\n'%(pat,pr))
    con[ty]=(A,B,D)
    if ty=='ParsePreambleError':
        out+='''theorem Fixed.bytes8 (T : StdText) {b : Bytes} (h : b.length ≤ 8) : Fixed 130 9 (dbg T b) := by
  have := Squat.bytes T 0 h
  exact ⟨Nat.le_trans this.1 (by decide), Nat.le_trans this.2 (by decide)⟩

'''
    out+='instance : Terse %s where\n  a := %d\n  b := %d\n  d := %d\n  terse T u n e hu hs := match e with\n'%(ty,A,B,D)+''.join(rows)+'\n'
    if ty in dub: out+='instance : Dubbed %s := ⟨by decide⟩\n\n'%ty
out+='end Wadec\n'
open(root+'/Proof/Curt.lean','w').write(out)
print(own['DecodeModuleError'],con['DecodeModuleError'])
