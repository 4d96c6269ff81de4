import Verif.Model.Module

/-! Decoding on a target where vectors may be too large, for Verif/Model/Target.lean.

`Vec::with_capacity(n)` and `vec![0u8; n]` panic ("capacity overflow") if `n` elements have more than `isize::MAX` bytes, and end the
program if the allocator has no room for them; so does `push` when the vector has to grow.  In Verif/Model/Helpers.lean these
requests always succeed.  In `namespace Wadec.Bounded` the name `Dec` stands for decoders that are told what the target has room for;
the definitions mirror those of Verif/Model/Io.lean.

Modelled are the two places where the announced length is requested before the elements have been read (src/decode/helpers.rs:111,
160), and the growth of the vectors of locals (src/decode/module.rs:275), the only vectors whose size is not bounded by the bytes read.
Not modelled is the room for vectors that grow with the bytes read, or are made from others (src/decode/helpers.rs:35,
src/decode/sections/custom.rs:20, src/decode/sections/element.rs:67, src/decode/module.rs:233, 239, 312, 317), and for the messages. -/

namespace Wadec.Bounded

/-- What the elements of a vector are: the types for which src/decode/helpers.rs:111 (`decode_list`) and 160 (`decode_byte_vector`)
are used. -/
inductive ElemKind where
  | byte | recType | subType | typeIdx | valType | fieldType | labelIdx | catchClause | importEntry | tableEntry | memType | tagType
  | globalEntry | exportEntry | elemEntry | funcIdx | expr | codeEntry | localRun | dataEntry
deriving DecidableEq

/-- The target: how many elements of a kind there is room for when a vector is made (src/decode/helpers.rs:111, 160), and how many
locals a vector can grow to by `push` (src/decode/module.rs:275). -/
structure Target where
  fits : ElemKind → Nat → Bool
  grows : Nat → Bool

/-- The kind of the elements of `Vec<T>` (src/decode/helpers.rs:101: the type parameter `T` of `decode_list`). -/
class Element (α : Type) where
  kind : ElemKind

/-- src/core/types/rectype.rs:11 (`RecType`): element type of `decode_list` -/
instance : Element RecType := ⟨.recType⟩
/-- src/core/types/rectype.rs:14 (`SubType`): element type of `decode_list` -/
instance : Element SubType := ⟨.subType⟩
/-- src/core/indices.rs:12 (`TypeIdx`): element type of `decode_list` -/
instance : Element TypeIdx := ⟨.typeIdx⟩
/-- src/core/types/valtype.rs:12 (`ValType`): element type of `decode_list` -/
instance : Element ValType := ⟨.valType⟩
/-- src/core/types/comptype.rs:22 (`FieldType`): element type of `decode_list` -/
instance : Element FieldType := ⟨.fieldType⟩
/-- src/core/indices.rs:20 (`LabelIdx`): element type of `decode_list` -/
instance : Element LabelIdx := ⟨.labelIdx⟩
/-- src/core/instruction.rs:547 (`Catch`): element type of `decode_list` -/
instance : Element Catch := ⟨.catchClause⟩
/-- src/core/mod.rs:34 (`Import`): element type of `decode_list` -/
instance : Element Import := ⟨.importEntry⟩
/-- src/core/mod.rs:163 (`Table`): element type of `decode_list` -/
instance : Element Table := ⟨.tableEntry⟩
/-- src/core/types/memtype.rs:12 (`MemType`): element type of `decode_list` -/
instance : Element MemType := ⟨.memType⟩
/-- src/core/types/tagtype.rs:10 (`TagType`): element type of `decode_list` -/
instance : Element TagType := ⟨.tagType⟩
/-- src/core/mod.rs:96 (`Global`): element type of `decode_list` -/
instance : Element Global := ⟨.globalEntry⟩
/-- src/core/mod.rs:48 (`Export`): element type of `decode_list` -/
instance : Element Export := ⟨.exportEntry⟩
/-- src/core/mod.rs:140 (`Elem`): element type of `decode_list` -/
instance : Element Elem := ⟨.elemEntry⟩
/-- src/core/indices.rs:13 (`FuncIdx`): element type of `decode_list` -/
instance : Element FuncIdx := ⟨.funcIdx⟩
/-- src/core/mod.rs:20 (`Expr`, `Vec<Instruction>`): element type of `decode_list` -/
instance : Element Expr := ⟨.expr⟩
/-- src/decode/sections/code.rs:22 (`Code`): element type of `decode_list` -/
instance : Element Code := ⟨.codeEntry⟩
/-- src/decode/sections/code.rs:80 (`Local`): element type of `decode_list` -/
instance : Element Local := ⟨.localRun⟩
/-- src/core/mod.rs:113 (`Data`): element type of `decode_list` -/
instance : Element Data := ⟨.dataEntry⟩

/-- A decoding function of src/decode/*.rs, on a target. -/
def Dec (R ε α : Type) : Type := R → Target → Res ε α × R

namespace Dec
variable {R ε ε' α β : Type}

/-- a decoding function that makes no vectors (throughout src/decode/*.rs) -/
def lift (d : Wadec.Dec R ε α) : Dec R ε α := fun r _ => d r

/-- `Ok(a)`, throughout src/decode/*.rs -/
def ok (a : α) : Dec R ε α := fun r _ => (.ok a, r)

/-- `return Err(e)`, throughout src/decode/*.rs -/
def err (e : ε) : Dec R ε α := fun r _ => (.err e, r)

/-- a Rust panic, throughout src/decode/*.rs -/
def panic : Dec R ε α := fun r _ => (.panic, r)

/-- step budget used up (model artefact, nothing in src/decode/*.rs) -/
def outOfFuel : Dec R ε α := fun r _ => (.fuel, r)

/-- `let a = d?; f(a)`, throughout src/decode/*.rs -/
def bind (d : Dec R ε α) (f : α → Dec R ε β) : Dec R ε β := fun r t =>
  match d r t with
  | (.ok a, r') => f a r' t
  | (.err e, r') => (.err e, r')
  | (.panic, r') => (.panic, r')
  | (.fuel, r') => (.fuel, r')

/-- `?` in sequence, throughout src/decode/*.rs -/
instance : Monad (Dec R ε) where
  pure := Dec.ok
  bind := Dec.bind

/-- `d.map_err(f)`, throughout src/decode/*.rs -/
def mapErr (f : ε → ε') (d : Dec R ε α) : Dec R ε' α := fun r t =>
  match d r t with
  | (.ok a, r') => (.ok a, r')
  | (.err e, r') => (.err (f e), r')
  | (.panic, r') => (.panic, r')
  | (.fuel, r') => (.fuel, r')

/-- Run `d` on `Cursor::new([b]).chain(reader)` (src/decode/types/*.rs and the other lines listed at `Chain`) -/
def withChain (b : UInt8) (d : Dec (Chain R) ε α) : Dec R ε α := fun r t =>
  match d { first := [b], inner := r } t with
  | (res, c) => (res, c.inner)

/-- Run `d` on `reader.take(n)` (src/decode/module.rs:224, src/decode/sections/code.rs:53) -/
def withTake (n : Nat) (d : Dec (Take R) ε α) : Dec R ε (α × Nat) := fun r t =>
  match d { limit := n, inner := r } t with
  | (.ok a, t) => (.ok (a, t.limit), t.inner)
  | (.err e, t) => (.err e, t.inner)
  | (.panic, t) => (.panic, t.inner)
  | (.fuel, t) => (.fuel, t.inner)

/-- src/decode/helpers.rs:111, 160: `Vec::with_capacity(n)`, `vec![0u8; n]` end the program if the target has no room. -/
def reserve [Read R] (k : ElemKind) (n : Nat) : Dec R ε Unit := fun r t =>
  if t.fits k n then (.ok (), Read.reserve n r) else (.panic, r)

/-- src/decode/module.rs:272-278: pushing `n` locals ends the program if the target has no room. -/
def grow (n : Nat) : Dec R ε Unit := fun r t => if t.grows n then (.ok (), r) else (.panic, r)

end Dec

end Wadec.Bounded
