#!/usr/bin/env python3
"""Generates lean/Verif/Model/Copies.lean (derived Clone and Hash) from the constructors of `Instr`, `BlockType` and `Catch` in
lean/Verif/Core/Syntax.lean."""
import re, os
root = os.path.join(os.path.dirname(__file__), '..', 'lean', 'Verif')
s = open(os.path.join(root, 'Core/Syntax.lean')).read()
def ctors(decl):
    body = s[s.index(decl):]
    body = body[:body.index('deriving')] if 'deriving' in body else body
    out = []
    for line in body.splitlines()[1:]:
        m = re.match(r'\s*\| (\w+)(.*)', line)
        if not m: continue
        args = []
        for ns, ty in re.findall(r'\(([\w ]+) : ([^()]*(?:\([^()]*\))?[^()]*)\)', m.group(2)):
            for n in ns.split(): args.append(ty.strip())
        out.append((m.group(1), args))
    return out
def arm(name, args):
    l = f".{name}" + ''.join(' a%d' % i for i in range(len(args)))
    r = f".{name}"
    for i, ty in enumerate(args):
        f = {'List Instr': 'cloneInstrs', 'Option (List Instr)': 'cloneInstrsOpt'}.get(ty, 'RClone.clone')
        r += f' ({f} a{i})'
    return f'  | {l} => {r}'
copy = [('AddrType', 'types/addrtype.rs:5'), ('NumType', 'types/numtype.rs:15'), ('VecType', 'types/vectype.rs:14'),
  ('AbsHeapType', 'types/heaptype.rs:50'), ('HeapType', 'types/heaptype.rs:44'), ('RefType', 'types/reftype.rs:9'),
  ('ValType', 'types/valtype.rs:11'), ('Mut', 'types/globaltype.rs:11'), ('PackType', 'types/comptype.rs:30'),
  ('StorageType', 'types/comptype.rs:24'), ('FieldType', 'types/comptype.rs:21'), ('TagType', 'types/tagtype.rs:9'),
  ('Memarg', 'instruction.rs:525'), ('LaneIdx', 'instruction.rs:536'), ('SectionKind', 'module.rs:171')]
idx = ['TypeIdx', 'FuncIdx', 'TableIdx', 'MemIdx', 'GlobalIdx', 'ElemIdx', 'DataIdx', 'LocalIdx', 'LabelIdx', 'TagIdx']
out = ['''import Verif.Core.Syntax

/-! Generated by tools/gen_copies.py: what `#[derive(Clone)]` and `#[derive(Hash)]` produce.

A derived `clone` matches on the variant and rebuilds it from the clones of its fields, in order.  For a type without parameters
that also derives `Copy`, it is `*self`.  `Vec<T>` clones its elements in order, `Option<T>` what is in it. -/

namespace Wadec

/-- `Clone` (derived at src/core/instruction.rs:7 and the lines cited below) -/
class RClone (α : Type) where
  /-- `fn clone(&self) -> Self` (src/core/instruction.rs:7) -/
  clone : α → α

/-! ### Types that are `Copy`: `*self` -/
''']
prim = [('UInt32', '`u32` in the fields of src/core/instruction.rs:8-520'), ('UInt64', '`u64` and `f64` in the fields of src/core/instruction.rs:8-520'),
  ('Int32', '`i32` in src/core/instruction.rs:8-520'), ('Int64', '`i64` in src/core/instruction.rs:8-520'),
  ('Bool', '`bool` in src/core/types/rectype.rs:15'), ('Bytes16', '`[u8; 16]`, `[LaneIdx; 16]` in src/core/instruction.rs:286-287 (arrays of `Copy` elements are `Copy`)')]
for t, c in prim: out.append(f'/-- {c} -/\ninstance : RClone {t} := ⟨fun self => self⟩')
for t, c in copy: out.append(f'/-- src/core/{c} -/\ninstance : RClone {t} := ⟨fun self => self⟩')
for n, t in enumerate(idx): out.append(f'/-- src/core/indices.rs:7, {12 + n} -/\ninstance : RClone {t} := ⟨fun self => self⟩')
for t, c in [('PlainOp', 'without fields'), ('MemOp', 'with a `Memarg`'), ('MemLaneOp', 'with a `Memarg` and a lane'), ('LaneOp', 'with a lane')]:
    out.append(f'/-- which of the variants {c} of src/core/instruction.rs:8-520 it is -/\ninstance : RClone {t} := ⟨fun self => self⟩')
out.append('''
/-! ### Types that are not -/

/-- `Vec<T>: Clone`, in src/core/types/comptype.rs:9, rectype.rs:10-13, instruction.rs:7 -/
def cloneVec {α : Type} [RClone α] : List α → List α
  | [] => []
  | a :: as => RClone.clone a :: cloneVec as

/-- `Vec<T>: Clone`, in src/core/types/comptype.rs:9, rectype.rs:10-13, instruction.rs:7 -/
instance {α : Type} [RClone α] : RClone (List α) := ⟨cloneVec⟩

/-- `Option<T>: Clone`, in src/core/instruction.rs:7 -/
instance {α : Type} [RClone α] : RClone (Option α) := ⟨fun | none => none | some a => some (RClone.clone a)⟩

/-- src/core/types/comptype.rs:9 -/
instance : RClone CompType where
  clone
    | .Struct a0 => .Struct (RClone.clone a0)
    | .Array a0 => .Array (RClone.clone a0)
    | .Func a0 a1 => .Func (RClone.clone a0) (RClone.clone a1)

/-- src/core/types/rectype.rs:13 -/
instance : RClone SubType where
  clone s := { is_final := RClone.clone s.is_final, supertypes := RClone.clone s.supertypes, comptype := RClone.clone s.comptype }

/-- src/core/types/rectype.rs:10 -/
instance : RClone RecType where
  clone r := { subtypes := RClone.clone r.subtypes }

/-- src/core/instruction.rs:539 -/
instance : RClone BlockType where
  clone''')
out += ['  ' + arm(n, a) for n, a in ctors('inductive BlockType where')]
out.append('''
/-- src/core/instruction.rs:546 -/
instance : RClone Catch where
  clone''')
out += ['  ' + arm(n, a) for n, a in ctors('inductive Catch where')]
out.append('''
mutual
/-- src/core/instruction.rs:7 -/
def cloneInstr : Instr → Instr''')
out += [arm(n, a) for n, a in ctors('inductive Instr where')]
out.append('''/-- `Vec<Instruction>` in the variants of src/core/instruction.rs:7-520 -/
def cloneInstrs : List Instr → List Instr
  | [] => []
  | a :: as => cloneInstr a :: cloneInstrs as
/-- `Option<Vec<Instruction>>` in the variants of src/core/instruction.rs:7-520 -/
def cloneInstrsOpt : Option (List Instr) → Option (List Instr)
  | none => none
  | some a => some (cloneInstrs a)
end

/-- src/core/instruction.rs:7 -/
instance : RClone Instr := ⟨cloneInstr⟩

/-! ### Hash -/

/-- `core::hash::Hasher` as far as the derive at src/core/indices.rs:7 uses it: a state that is fed a `u32`, and its result. -/
class Hasher (H : Type) where
  /-- `fn write_u32(&mut self, i: u32)` (called from src/core/indices.rs:7) -/
  write_u32 : H → UInt32 → H
  /-- `fn finish(&self) -> u64` (of the map that uses the derive at src/core/indices.rs:7) -/
  finish : H → UInt64

/-- `Hash` (derived at src/core/indices.rs:7) -/
class RHash (α : Type) where
  /-- `fn hash<H: Hasher>(&self, state: &mut H)` (src/core/indices.rs:7) -/
  hash : {H : Type} → [Hasher H] → α → H → H

/-- `u32: Hash`, for the field of src/core/indices.rs:8 -/
instance : RHash UInt32 := ⟨fun self state => Hasher.write_u32 state self⟩
''')
for n, t in enumerate(idx):
    out.append(f'/-- src/core/indices.rs:7, {12 + n}: the hash of its field -/\ninstance : RHash {t} := ⟨fun self state => RHash.hash self.val state⟩')
out.append('\nend Wadec')
open(os.path.join(root, 'Model/Copies.lean'), 'w').write('\n'.join(out) + '\n')
