"""Generates lean/Verif/Proof/Brief.lean: one instance of `Brief` per error type, in the order of Model/Display.lean, with the number of
messages an error of that type can have besides those of an `io::Error`."""
import re,os
root=os.path.join(os.path.dirname(os.path.abspath(__file__)),'..','lean','Verif')
disp=open(root+'/Model/Display.lean').read()
errs=open(root+'/Model/Errors.lean').read()
pay={}
for m in re.finditer(r'^inductive (\w+)(?: \(E : Type\))? where\n((?:  \|.*\n)+)',errs,re.M):
    for v in re.finditer(r'\| (\w+)(.*)',m.group(2)):
        f=re.search(r'\((?:e|source) : (.*)\)$',v.group(2).strip())
        t=f.group(1).strip() if f else None
        pay[(m.group(1),v.group(1))]=t
n={'IoError':0,'FromUtf8Error':0}
def num(t):
    t=t.strip()
    while t.startswith('(') and t.endswith(')'): t=t[1:-1]
    if t.startswith('DecodeListError'): return num(t[len('DecodeListError'):])+1
    return n[t]
def chars(t): return '['+', '.join("'%s'"%c for c in t)+']'
def pieces(t):
    """split a concatenation `"a" ++ f x ++ "b"`"""
    out=[];i=0
    for q in re.findall(r'"(?:[^"\\]|\\.)*"|\+\+|(?:(?!\+\+)[^"])+',t):
        q=q.strip()
        if q and q!='++': out.append(q)
    return out
def flat(q):
    if q.startswith('"'):
        assert '\\' not in q,q
        return '(.lit %s rfl)'%chars(q[1:-1])
    if q.startswith('toString'): return '(.int _)' if 'toInt' in q else '(.nat _)'
    if q.startswith('hex04'): return '(.hex04 _)'
    if q.startswith('markersFormatted'):
        return '(.markers %s)'%{'AbsHeapType':'NoBreak.heap','Mut':'NoBreak.mut','PackType':'NoBreak.pack','SectionKind':'NoBreak.kind'}[q.split()[1].split('.')[0]]
    if q.endswith('.debug'): return '(.kind _)'
    raise Exception(q)
def oneline(t):
    ps=pieces(t)
    if ps[0].startswith('"'): r='OneLine.lit %s rfl'%chars(ps[0][1:-1]); ps=ps[1:]
    else:
        assert ps[1].startswith('"')
        r='OneLine.right %s (OneLine.lit %s rfl)'%(flat(ps[0]),chars(ps[1][1:-1])); ps=ps[2:]
    for q in ps: r='OneLine.left (%s) %s'%(r,flat(q))
    return r
out="""import Verif.Proof.Lines

/-! Generated by tools/gen_brief.py: how many messages an error has, and that each is one line (C67).
One instance of `Brief` and one of `Lined` per error type, in the order of Model/Display.lean. -/

set_option linter.unusedVariables false

namespace Wadec

open Spec

"""
many=('ParsePreambleError','DecodeModuleError')  # `{:#X?}`: several lines, see Props/Lines.lean
for m in re.finditer(r'^instance (\{E : Type\} \[ErrText E\] )?: ErrText (\(?[\w ]+\)?) where\n  chain (?:io|_)\n((?:    \|.*\n)+)',disp,re.M):
    ty=m.group(2).strip('()').split()[0]
    k=0; b=''; l=''
    for v in re.finditer(r'\| (\.\w+)(.*?) => (.*)',m.group(3)):
        rhs=v.group(3); pat=v.group(1)+v.group(2)
        if rhs.startswith('['):
            b+='    | %s => Brief.leaf h1\n'%pat
            if not pat.startswith('.Unexpected') or ty!='ParsePreambleError': l+='    | %s => Lined.leaf (%s)\n'%(pat,oneline(rhs[1:-1]))
            continue
        t=pay[(ty,v.group(1)[1:])]
        assert t,(ty,v.group(1))
        if ty!='DecodeListError': k=max(k,num(t)+(1 if '::' in rhs else 0))
        if '::' in rhs:
            arg='(Nat.lt_succ_of_le (Nat.zero_le _))' if ty=='DecodeListError' and pat.startswith('.DecodeLength') else '(Nat.lt_succ_self _)' if ty=='DecodeListError' else '(by decide)'
            b+='    | %s => Brief.cons (e := e) h1 hk %s\n'%(pat,arg)
            mm=re.match(r'\((.*)\) :: ErrText',rhs)
            l+='    | %s => Lined.cons h (%s)\n'%(pat,oneline(mm.group(1)))
        else:
            b+='    | %s => Brief.same (e := e) h1 hk (by decide)\n'%pat
            if pat!='.ParsePreamble e': l+='    | %s => Lined.line io e h\n'%pat
    n[ty]=k
    if ty=='DecodeListError':
        out+='instance {E : Type} [ErrText E] [Brief E] : Brief (DecodeListError E) where\n  own := Brief.own E + 1\n  brief io k e h1 hk := match e with\n'+b
        out+='\ninstance {E : Type} [ErrText E] [Lined E] : Lined (DecodeListError E) where\n  line io e h := match e with\n'+l+'\n'
    else:
        out+='instance : Brief %s where\n  own := %d\n  brief io k e h1 hk := match e with\n'%(ty,k)+b+'\n'
        if ty=='ParsePreambleError': pre=l
        elif ty=='DecodeModuleError':
            out+='''theorem module_lined (io : IoError → List String) (e : DecodeModuleError) (h : ∀ x, ∀ s ∈ io x, OneLine s)
    (hn : ∀ b, e ≠ .ParsePreamble (.Unexpected b)) : ∀ s ∈ ErrText.chain io e, OneLine s :=
  match e with
    | .ParsePreamble (.Unexpected b) => absurd rfl (hn b)
    | .ParsePreamble (.Io e) => '''+pre.split('=> ',1)[1]+l+'\n'
        else: out+='instance : Lined %s where\n  line io e h := match e with\n'%ty+l+'\n'
out+='end Wadec\n'
open(root+'/Proof/Brief.lean','w').write(out)
print(len(n),n['DecodeModuleError'])
