"""Generates lean/Verif/Spec/Opcodes.lean from tools/spec_opcodes.txt (opcode assignments of the
WebAssembly specification, written down independently of /repo)."""
import re
special={'i16x8.relaxed_dot_i8x16_i7x16_s':'I16x8RelaxedDotSI8x16',
 'i32x4.relaxed_dot_i8x16_i7x16_add_s':'I32x4RelaxedDotAddSI16x8'}
sub={'andnot':'AndNot','q15mulr':'Q15Mulr','laneselect':'LaneSelect','madd':'MAdd','nmadd':'NMAdd',
 'pmin':'PMin','pmax':'PMax'}
def cname(m,fam):
    if m in special: return special[m]
    parts=re.split(r'[._]',m)
    n=''.join(sub.get(p,p[0].upper()+p[1:]) for p in parts)
    if fam=='mem' and re.match(r'i(32|64)\.load\d+_[su]$',m): n=n[:-1]+n[-1].lower()
    return n
fams={'plain':[],'mem':[],'memlane':[],'lane':[]}
for l in open('/verif/tools/spec_opcodes.txt'):
    l=l.strip()
    if not l or l[0]=='#': continue
    head,names=l.split(':')
    fam,sp,start=head.split()
    c=int(start,16)
    for m in names.split():
        code = f".byte 0x{c:02X}" if sp=='byte' else f".{sp} {c}"
        fams[fam].append((cname(m,fam),code,m)); c+=1
o="""import Verif.Core.Ops

/-! Generated by tools/gen_spec_ops.py from tools/spec_opcodes.txt: the opcode of each instruction
according to the WebAssembly 3.0 specification (appendix "Index of Instructions").  This table was
written down independently of /repo. -/

namespace Wadec.Spec

/-- An opcode: a single byte, or one of the prefix bytes 0xFB, 0xFC, 0xFD followed by a number
encoded as a `u32`. -/
inductive Opcode where
  | byte (b : UInt8)
  | fb (n : Nat)
  | fc (n : Nat)
  | fd (n : Nat)
  deriving DecidableEq, Repr

"""
for fam,ty,doc in [('plain','PlainOp','instructions without immediates'),('mem','MemOp','instructions with a memarg'),
  ('memlane','MemLaneOp','instructions with a memarg and a lane index'),('lane','LaneOp','instructions with a lane index')]:
    o+=f"/-- Opcodes of the {doc}. -/\ndef opcodeOf{ty} : {ty} → Opcode\n"
    for n,c,m in fams[fam]: o+=f"  | .{n} => {c}    -- {m}\n"
    o+="\n"
o+="end Wadec.Spec\n"
open('/verif/lean/Verif/Spec/Opcodes.lean','w').write(o)
print({k:len(v) for k,v in fams.items()})
