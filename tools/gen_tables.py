"""Generates lean/Verif/Model/Opcodes.lean: the opcode tables of Instruction::parse
(/repo/src/decode/instructions.rs:203-1012) for the instruction families of Verif/Core/Ops.lean."""
import re
L=open('/repo/src/decode/instructions.rs').read().split('\n')
ops=open('/verif/lean/Verif/Core/Ops.lean').read()
fam={}
for m in re.finditer(r'inductive (\w+) where\n(.*?)deriving',ops,re.S):
    for w in re.findall(r'\w+',m.group(2)): fam.setdefault(w,[]).append(m.group(1))
ctx='B'; tabs={}
for n,l in enumerate(L,1):
    if n<198: continue
    if re.match(r'            0xFB =>',l): ctx='FB'
    elif re.match(r'            0xFC =>',l): ctx='FC'
    elif re.match(r'            0xFD =>',l): ctx='FD'
    elif re.match(r'            (\}|\},)$',l) and ctx!='B' : ctx='B'
    m=re.match(r'\s*(0x[0-9A-F]+|\d+) => Instruction::(\w+)(\(m\)|\(m, l\)|\(l\))?,',l)
    if m:
        k={None:'PlainOp','(m)':'MemOp','(m, l)':'MemLaneOp','(l)':'LaneOp'}[m.group(3)]
        assert k in fam[m.group(2)],(n,l)
        tabs.setdefault((ctx,k),[]).append((m.group(1),m.group(2),n))
    if l.startswith('pub(crate) enum ParseResult'): break
names={('B','PlainOp'):'plainByteTable',('FB','PlainOp'):'plainFBTable',('FC','PlainOp'):'plainFCTable',('FD','PlainOp'):'plainFDTable',('B','MemOp'):'memTable',('FD','MemOp'):'memFDTable',('FD','MemLaneOp'):'memLaneFDTable',('FD','LaneOp'):'laneFDTable'}
o="""import Verif.Core.Syntax

/-! Generated by tools/gen_tables.py from `Instruction::parse` (src/decode/instructions.rs:203-1012):
for each instruction family the arms `opcode => Instruction::Name...` in source order. -/

namespace Wadec

"""
for key,nm in names.items():
    t=tabs[key]
    ky='UInt8' if key[0]=='B' else 'UInt32'
    o+=f"/-- src/decode/instructions.rs:{t[0][2]}-{t[-1][2]}{'' if key[0]=='B' else ', after the prefix 0x'+key[0]} -/\ndef {nm} : List ({ky} × {key[1]}) :=\n  ["
    line=''
    items=[f"({a}, .{b})" for a,b,_ in t]
    lines=[', '.join(items[i:i+4]) for i in range(0,len(items),4)]
    o+=",\n   ".join(lines)+"]\n\n"
o+="end Wadec\n"
open('/verif/lean/Verif/Model/Opcodes.lean','w').write(o)
for k in names: print(k,len(tabs[k]))
print(set(tabs)-set(names), sum(len(t) for k,t in tabs.items() if k[1]=='PlainOp'))
