"""Generates the second half of lean/Verif/Model/Depth.lean: the decoders that contain expressions, with room for `d` nested calls of
`Instruction::parse`; copies of the definitions in Model/Sections.lean and Model/Module.lean with the calls replaced."""
import re,os
root=os.path.join(os.path.dirname(os.path.abspath(__file__)),'..','lean','Verif','Model')
F=['decodeExpr','parseCodeBody','parseCode','decodeCodeSection',"decodeExpr'",'parseData','decodeDataSection','elemExprs','parseElem',
 'decodeElementSection','parseGlobal','decodeGlobalSection','decodeTable','decodeTableSection','decodeSectionBody','decodeSection','sectionLoop','decodeModule']
src=open(root+'/Sections.lean').read()+open(root+'/Module.lean').read()
p=root+'/Depth.lean'
s=open(p).read()
mark='/-! ### Generated by tools/gen_depth.py -/\n'
s=s[:s.index(mark)] if mark in s else s.replace('\nend Wadec\n','\n')
def w(f): return f[:-1]+"Within'" if f.endswith("'") else f+'Within'
out=mark
for f in F[1:]:
    m=re.search(r'(/--(?:(?!/--).)*?-/\n)def '+re.escape(f)+r'(?=[ \n]).*?(?=\n\n)',src,re.S)
    assert m,f
    t=m.group(0)
    doc=m.group(1); body=t[len(doc):]
    for g in sorted(F,key=len,reverse=True):
        body=re.sub(r'(?<![\w.])'+re.escape(g)+r"(?![\w'])",'\0'+str(F.index(g))+'\0',body)
    def rep(mm):
        g=F[int(mm.group(1))]
        return '('+w(g)+' d)'
    # the head
    h='def \0%d\0'%F.index(f)
    assert body.startswith(h),f
    body='def '+w(f)+' (d : Nat)'+body[len(h):]
    body=re.sub('\0(\\d+)\0',rep,body)
    doc=doc.rstrip()
    assert doc.endswith('-/')
    doc=doc[:-2].rstrip()
    doc+=('' if doc.endswith('.') else ';')+' with room for `d` nested calls of `Instruction::parse` -/\n'
    out+=doc+body+'\n\n'
open(p,'w').write(s+out+'end Wadec\n')
