"""Generates lean/Verif/Model/Target.lean: the decoding functions of Model/{Helpers,Types,Instructions,Sections,Module}.lean that make
vectors, directly or not, once more, in the monad of Model/TargetBase.lean, where a vector may be too large for the target.  The text of
the definitions is copied; only the kinds of vectors are added.  Functions that make no vector are taken over as they are (`lift`)."""
import re,os
root=os.path.join(os.path.dirname(os.path.abspath(__file__)),'..','lean','Verif','Model')
FILES=['Io','Integer','Helpers','Types','Instructions','Sections','Module']
SEEDS={'decodeListS','decodeByteVector','fillFuncs'}
EXTRA={
 'decodeListS':[('(parse_fn : σ','[Element α] (parse_fn : σ'),('Dec.reserve len.toNat','Dec.reserve (Element.kind α) len.toNat')],
 'decodeList':[('(parse_fn : Dec','[Element α] (parse_fn : Dec')],
 'decodeByteVector':[('Dec.reserve len.toNat','Dec.reserve .byte len.toNat')],
 'fillFuncs':[("    | some f =>\n","    | some f => do\n      Dec.grow (expandLocals code.locals).length\n")],
 'decodeSection':[("st.module.validateSectionKindExpected h.kind","Module.validateSectionKindExpected st.module h.kind")],
}
defs=[]
for f in FILES:
    src=open(f'{root}/{f}.lean').read()
    for m in re.finditer(r'(/--(?:(?!/--).)*?-/\n)(def (\S+)(.*?))(?=\n\n|\n/--|\nend|\nmutual|\n/-!)',src,re.S):
        doc,body,name,_=m.groups()
        head=re.match(r'def \S+(.*?)(:=|\n  \|)',body,re.S)
        typ=head.group(1)
        depth=0; last=None
        for i,ch in enumerate(typ):
            if ch in '([{': depth+=1
            if ch in ')]}': depth-=1
            if ch==':' and depth==0: last=i; break
        if last is None: continue
        res=re.split(r'→(?![^()]*\))',typ[last:])[-1]
        if not re.search(r'\bDec R ',res): continue
        defs.append((f,name,doc,body,typ[:last],typ[last:],head))
names=[d[1] for d in defs]
def uses(body,g): return re.search(r'(?<![\w.])'+re.escape(g)+r"(?![\w'])",body) is not None
calls={d[1]:{g for g in names if g!=d[1] and uses(d[3],g)} for d in defs}
calls['decodeSection'].add('Module.validateSectionKindExpected')
reach=set(SEEDS)
while True:
    more={n for n in names if n not in reach and calls[n]&reach}
    if not more: break
    reach|=more
reach|={'decodeListLoop','parseSeq','decodeExprLoop'}     # they take decoders as arguments
lifted=set().union(*[calls[n] for n in reach])-reach
out='''import Verif.Model.TargetBase

/-! The decoding functions that make vectors, on a target where a vector may be too large.  Generated by tools/gen_target.py from
Verif/Model/{Io,Integer,Helpers,Types,Instructions,Sections,Module}.lean: the same text in the monad of Verif/Model/TargetBase.lean.
Functions that make no vectors are taken over by `lift`. -/

namespace Wadec.Bounded

variable {R : Type} [Read R] {ε α σ : Type}

'''
cur=None
for f,name,doc,body,args,typ,head in defs:
    if f=='Io' and name not in ('readExact','readToEnd','readByte'): continue
    if name not in reach and name not in lifted: continue
    if cur!=f: out+=f'/-! ### Model/{f}.lean -/\n\n'; cur=f
    doc=doc.rstrip()[:-2].rstrip()
    doc=doc[:-1] if doc.endswith('.') else doc
    if name in lifted:
        xs=re.findall(r'\((\w+(?: \w+)*) :',args)
        app=' '.join(xs)
        arrows=len(re.split(r'→(?![^()]*\))',typ))-1
        vs=''.join(f' x{i}' for i in range(arrows))
        fn=f'fun{vs} => ' if arrows else ''
        out+=doc+'; makes no vectors -/\n'+f'def {name}{args}{typ.rstrip()} :=\n  {fn}Dec.lift (Wadec.{name}{" "+app if app else ""}{vs})\n\n'
        continue
    if name=='decodeSectionHeader': raise SystemExit('header')
    for a,b in EXTRA.get(name,[]):
        assert a in body,(name,a)
        body=body.replace(a,b)
    out+=doc+'; vectors may be too large -/\n'+body+'\n\n'
open(root+'/Target.lean','w').write(out+'end Wadec.Bounded\n')
print(sorted(reach)); print(sorted(lifted))
