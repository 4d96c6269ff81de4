"""Generates lean/Verif/Core/Ops.lean (the payload-less instruction variants and the families with a
uniform payload) from /repo/src/core/instruction.rs."""
import re
src=open('/repo/src/core/instruction.rs').read().split('\n')
plain=[];mem=[];memlane=[];lane=[]
inenum=False
first={}
for n,l in enumerate(src,1):
    if l.startswith('pub enum Instruction'): inenum=True; continue
    if inenum and l.startswith('}'): break
    if not inenum: continue
    s=l.strip()
    if s.startswith('//') or not s: continue
    m=re.match(r'(\w+)(\((.*)\))?,$',s)
    name,args=m.group(1),m.group(3)
    if args is None: plain.append(name)
    elif args=='Memarg': mem.append(name)
    elif args=='Memarg, LaneIdx': memlane.append(name)
    elif args=='LaneIdx': lane.append(name)
def en(nm,doc,l):
    out=f"/-- {doc} -/\ninductive {nm} where\n"
    for i in range(0,len(l),5):
        out+="  | "+" | ".join(l[i:i+5])+"\n"
    return out+"  deriving DecidableEq, Repr\n\n"
o="""/-! Generated by tools/gen_core.py from /repo/src/core/instruction.rs:8-520: the variants of
`enum Instruction` without payload, with a `Memarg`, with a `Memarg` and a `LaneIdx`, and with a
`LaneIdx`.  The Lean model groups them: `Instruction::I32Add` is `Instr.plain .I32Add`,
`Instruction::I32Load(m)` is `Instr.mem .I32Load m`, and so on; this is a renaming only. -/

namespace Wadec

"""
o+=en('PlainOp','Variants without payload (src/core/instruction.rs:8-520).',plain)
o+=en('MemOp','Variants with payload `Memarg` (src/core/instruction.rs:91-113, 264-277).',mem)
o+=en('MemLaneOp','Variants with payload `Memarg, LaneIdx` (src/core/instruction.rs:278-285).',memlane)
o+=en('LaneOp','Variants with payload `LaneIdx` (src/core/instruction.rs:288-301).',lane)
o+="end Wadec\n"
open('/verif/lean/Verif/Core/Ops.lean','w').write(o)
print(len(plain),len(mem),len(memlane),len(lane))
