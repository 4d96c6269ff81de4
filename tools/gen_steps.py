"""Generates lean/Verif/Model/Steps.lean: the decoding functions of Model/{Integer,Helpers,Types,Instructions,Sections,Module}.lean
once more, in a monad that counts steps: one per call of a function and per iteration of a loop, and what the charges listed in EXTRA
say.  The text of the definitions is copied; only the steps and charges are added."""
import re,os
root=os.path.join(os.path.dirname(os.path.abspath(__file__)),'..','lean','Verif','Model')
FILES=['Integer','Helpers','Types','Instructions','Sections','Module']
HAND={'decodeSectionHeader'}         # in Model/StepsBase.lean style, below
PUSH=['fillFuncs','decodeSectionBody','decodeSection','sectionLoop','decodeModule']
# (definition, old text, new text): work that the model does in one expression
EXTRA={
 'decodeName':[("  match utf8Check 0 bytes with","  Dec.charge bytes.length                            -- `from_utf8` looks at every byte\n  match utf8Check 0 bytes with")],
 'decodeExprLoop':[("    | .Instruction ins =>\n      decodeExprLoop p n","    | .Instruction ins => do\n      Dec.charge (scanned ins)\n      decodeExprLoop p n")],
 'parseElem':[("let y ← elemFuncs","let y ← elemFuncs; Dec.charge y.length")],
 'decodeSectionBody':[("DecodeModuleError.DecodeFunctionSection\n","DecodeModuleError.DecodeFunctionSection\n    Dec.charge idxs.length\n")],
 'fillFuncs':[("    | some f =>\n","    | some f => do\n      Dec.charge (code.locals.length + push * (code.locals.map (fun l => l.count.toNat)).sum)\n")],
 'decodeSection':[("st.module.validateSectionKindExpected h.kind","Module.validateSectionKindExpected st.module h.kind")],
}
out=open(root+'/StepsBase.lean').read()
assert out.rstrip().endswith('end Wadec.Counted')
out='''import Verif.Model.StepsBase

/-! The decoding functions, counting steps.  Generated by tools/gen_steps.py from Verif/Model/{Integer,Helpers,Types,Instructions,
Sections,Module}.lean: the same text in the monad of Verif/Model/StepsBase.lean, with a step for every call and every iteration.
`push` is the price of pushing one local (src/decode/module.rs:275). -/

namespace Wadec.Counted

variable {R : Type} [Read R] {ε α σ : Type}

'''
for f in FILES:
    src=open(f'{root}/{f}.lean').read()
    out+=f'/-! ### Model/{f}.lean -/\n\n'
    for m in re.finditer(r'(/--(?:(?!/--).)*?-/\n)(def (\S+)(.*?))(?=\n\n|\n/--|\nend|\nmutual|\n/-!)',src,re.S):
        doc,body,name,_=m.groups()
        head=re.match(r'def \S+(.*?)(:=|\n  \|)',body,re.S)
        if not re.search(r'\bDec R ',head.group(1)): continue
        # only if the result is a decoder
        typ=head.group(1)
        depth=0; last=0
        for i,ch in enumerate(typ):
            if ch in '([{': depth+=1
            if ch in ')]}': depth-=1
            if ch==':' and depth==0: last=i; break
        res=typ[last:]
        res=re.split(r'→(?![^()]*\))',res)[-1]
        if not re.search(r'\bDec R ',res): continue
        if name in HAND:
            out+=doc+'''def decodeSectionHeader : Dec R DecodeSectionHeaderError (Option SectionHeader) := Dec.step fun r =>
  match readByte r with
  | ((.ok id, r'), n) => Dec.more n (sectionHeaderRest id r')
  | ((.err e, r'), n) =>
    if e = .unexpectedEof then ((.ok none, r'), n) else ((.err (.ReadSectionIdByte e), r'), n)
  | ((.panic, r'), n) => ((.panic, r'), n)
  | ((.fuel, r'), n) => ((.fuel, r'), n)

'''
            continue
        for a,b in EXTRA.get(name,[]):
            assert a in body,(name,a)
            body=body.replace(a,b)
        if head.group(2)==':=':
            k=head.end()
            # the head may have shifted only after it
            body=body[:k]+' Dec.step <|'+body[k:]
        else:
            lines=body.split('\n'); arm=False
            for i,l in enumerate(lines):
                if re.match(r'  \| ',l):
                    lines[i]=l.replace(' =>',' => Dec.step <|',1)
            body='\n'.join(lines)
        if name in PUSH:
            hd='def '+name
            rest=body[len(hd):]
            for g in PUSH:
                rest=re.sub(r'(?<![\w.])'+g+r'(?!\w)',g+' push',rest)
            body=hd+' (push : Nat)'+rest
        doc=doc.rstrip()[:-2].rstrip()
        doc=doc[:-1] if doc.endswith(".") else doc
        doc+="; counting steps -/\n"
        out+=doc+body+'\n\n'
open(root+'/Steps.lean','w').write(out+'end Wadec.Counted\n')
