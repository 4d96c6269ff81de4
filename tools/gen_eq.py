#!/usr/bin/env python3
"""Generates lean/Verif/Model/Equality.lean (derived PartialEq of the instruction tree) from the
constructors of `Instr` in lean/Verif/Core/Syntax.lean."""
import re, os
root = os.path.join(os.path.dirname(__file__), '..', 'lean', 'Verif')
s = open(os.path.join(root, 'Core/Syntax.lean')).read()
body = s[s.index('inductive Instr where'):]
body = body[:body.index('deriving')]
ctors = []
for line in body.splitlines()[1:]:
    m = re.match(r'\s*\| (\w+)(.*)', line)
    if not m: continue
    name, rest = m.group(1), m.group(2)
    args = []
    for ns, ty in re.findall(r'\(([\w ]+) : ([^()]*(?:\([^()]*\))?[^()]*)\)', rest):
        for n in ns.split():
            args.append((n, ty.strip()))
    ctors.append((name, args))
out = ['''import Verif.Core.Syntax

/-! Generated by tools/gen_eq.py: `PartialEq` as derived for `Instruction` (src/core/instruction.rs:7),
for the types that contain expressions, and for `Module` (src/core/module.rs:14).

A derived `eq` compares the variants and then the fields in order with their own `eq`.  All types
below the instructions are made of integers, booleans, strings and vectors, whose `eq` is equality;
`f32` and `f64` compare as IEEE 754 prescribes. -/

namespace Wadec

/-- The `==` of the payload of `F32Const` (src/core/instruction.rs:7): `f32 == f32` on bit patterns: false if one of them is a NaN (exponent all ones, mantissa not
zero); the two zeros are equal; otherwise the patterns must agree. -/
def f32Eq (a b : UInt32) : Bool :=
  let nan (x : UInt32) : Bool := (x &&& 0x7FFFFFFF) > 0x7F800000
  let zero (x : UInt32) : Bool := (x &&& 0x7FFFFFFF) = 0
  !nan a && !nan b && ((zero a && zero b) || a = b)

/-- The `==` of the payload of `F64Const` (src/core/instruction.rs:7): `f64 == f64` on bit patterns -/
def f64Eq (a b : UInt64) : Bool :=
  let nan (x : UInt64) : Bool := (x &&& 0x7FFFFFFFFFFFFFFF) > 0x7FF0000000000000
  let zero (x : UInt64) : Bool := (x &&& 0x7FFFFFFFFFFFFFFF) = 0
  !nan a && !nan b && ((zero a && zero b) || a = b)

mutual
/-- src/core/instruction.rs:7 `#[derive(PartialEq)]` of `Instruction` -/
def Instr.eq : Instr → Instr → Bool''']
for name, args in ctors:
    xs = [n for n, _ in args]
    l = f".{name}" + ''.join(' a%d' % i for i in range(len(xs)))
    r = f".{name}" + ''.join(' b%d' % i for i in range(len(xs)))
    conj = []
    for i, (_, ty) in enumerate(args):
        if ty == 'List Instr': conj.append(f'instrsEq a{i} b{i}')
        elif ty == 'Option (List Instr)': conj.append(f'instrsOptEq a{i} b{i}')
        elif name == 'F32Const': conj.append(f'f32Eq a{i} b{i}')
        elif name == 'F64Const': conj.append(f'f64Eq a{i} b{i}')
        else: conj.append(f'decide (a{i} = b{i})')
    out.append(f'  | {l}, o => match o with | {r} => {" && ".join(conj) or "true"} | _ => false')
out.append('''/-- `Vec<Instruction>` in the variants of src/core/instruction.rs:7-520 -/
def instrsEq : List Instr → List Instr → Bool
  | [], o => match o with | [] => true | _ => false
  | a :: as, o => match o with | b :: bs => Instr.eq a b && instrsEq as bs | _ => false
/-- `Option<Vec<Instruction>>` in the variants of src/core/instruction.rs:7-520 -/
def instrsOptEq : Option (List Instr) → Option (List Instr) → Bool
  | none, o => match o with | none => true | _ => false
  | some a, o => match o with | some b => instrsEq a b | _ => false
end

/-- `Vec<T>: PartialEq`, used by the derive at src/core/module.rs:14 -/
def vecEq {α : Type} (eq : α → α → Bool) : List α → List α → Bool
  | [], [] => true
  | a :: as, b :: bs => eq a b && vecEq eq as bs
  | _, _ => false

/-- src/core/mod.rs:20 `Expr` is a `Vec<Instruction>` -/
def Expr.eq (a b : Expr) : Bool := instrsEq a b

/-- src/core/mod.rs:70 derived `PartialEq` of `Func` -/
def Func.eq (a b : Func) : Bool :=
  decide (a.type = b.type) && decide (a.locals = b.locals) && Expr.eq a.body b.body

/-- src/core/mod.rs:163 derived `PartialEq` of `Table` -/
def Table.eq (a b : Table) : Bool := decide (a.type = b.type) && Expr.eq a.init b.init

/-- src/core/mod.rs:96 derived `PartialEq` of `Global` -/
def Global.eq (a b : Global) : Bool := decide (a.type = b.type) && Expr.eq a.init b.init

/-- src/core/mod.rs:147 derived `PartialEq` of `ElemMode` -/
def ElemMode.eq : ElemMode → ElemMode → Bool
  | .Passive, .Passive => true
  | .Active t o, .Active t' o' => decide (t = t') && Expr.eq o o'
  | .Declare, .Declare => true
  | _, _ => false

/-- src/core/mod.rs:140 derived `PartialEq` of `Elem` -/
def Elem.eq (a b : Elem) : Bool :=
  decide (a.type = b.type) && vecEq Expr.eq a.init b.init && ElemMode.eq a.mode b.mode

/-- src/core/mod.rs:119 derived `PartialEq` of `DataMode` -/
def DataMode.eq : DataMode → DataMode → Bool
  | .Passive, .Passive => true
  | .Active m o, .Active m' o' => decide (m = m') && Expr.eq o o'
  | _, _ => false

/-- src/core/mod.rs:113 derived `PartialEq` of `Data` -/
def Data.eq (a b : Data) : Bool := decide (a.init = b.init) && DataMode.eq a.mode b.mode

/-- src/core/module.rs:14 derived `PartialEq` of `Module` -/
def Module.eq (a b : Module) : Bool :=
  decide (a.version = b.version) && decide (a.parsed_section_kinds = b.parsed_section_kinds) &&
  decide (a.section_headers = b.section_headers) && decide (a.custom_sections = b.custom_sections) &&
  decide (a.types = b.types) && vecEq Func.eq a.funcs b.funcs && vecEq Table.eq a.tables b.tables &&
  decide (a.mems = b.mems) && vecEq Global.eq a.globals b.globals && vecEq Elem.eq a.elems b.elems &&
  decide (a.data_count = b.data_count) && vecEq Data.eq a.datas b.datas &&
  decide (a.start = b.start) && decide (a.imports = b.imports) && decide (a.exports = b.exports) &&
  decide (a.tags = b.tags)

end Wadec
''')
open(os.path.join(root, 'Model/Equality.lean'), 'w').write('\n'.join(out))
