/-! Abstract syntax: indices and types (/repo/src/core/indices.rs, /repo/src/core/types/*.rs).

Constructor and field names are those of the Rust code.  Rust `u32`/`u64`/`u8` are Lean
`UInt32`/`UInt64`/`UInt8`, `Vec<T>` is `List T`, `Option` is `Option`. -/

namespace Wadec

/-! ### src/core/indices.rs:5-21 -/

/-- src/core/indices.rs:5-10, 12 -/
structure TypeIdx where val : UInt32 deriving DecidableEq, Repr
/-- src/core/indices.rs:5-10, 13 -/
structure FuncIdx where val : UInt32 deriving DecidableEq, Repr
/-- src/core/indices.rs:5-10, 14 -/
structure TableIdx where val : UInt32 deriving DecidableEq, Repr
/-- src/core/indices.rs:5-10, 15 -/
structure MemIdx where val : UInt32 deriving DecidableEq, Repr
/-- src/core/indices.rs:5-10, 16 -/
structure GlobalIdx where val : UInt32 deriving DecidableEq, Repr
/-- src/core/indices.rs:5-10, 17 -/
structure ElemIdx where val : UInt32 deriving DecidableEq, Repr
/-- src/core/indices.rs:5-10, 18 -/
structure DataIdx where val : UInt32 deriving DecidableEq, Repr
/-- src/core/indices.rs:5-10, 19 -/
structure LocalIdx where val : UInt32 deriving DecidableEq, Repr
/-- src/core/indices.rs:5-10, 20 -/
structure LabelIdx where val : UInt32 deriving DecidableEq, Repr
/-- src/core/indices.rs:5-10, 21 -/
structure TagIdx where val : UInt32 deriving DecidableEq, Repr

/-- A Rust `String` (src/core/mod.rs:34-51, src/core/custom_section.rs:14): its UTF-8 bytes (that they are valid UTF-8 is proved, C09). -/
structure Str where bytes : List UInt8 deriving DecidableEq, Repr

/-! ### src/core/types -/

/-- src/core/types/addrtype.rs:6-9 -/
inductive AddrType where | I32 | I64
  deriving DecidableEq, Repr

/-- src/core/types/numtype.rs:16-21 -/
inductive NumType where | Int32 | Int64 | Float32 | Float64
  deriving DecidableEq, Repr

/-- src/core/types/vectype.rs:15-17 -/
inductive VecType where | V128
  deriving DecidableEq, Repr

/-- src/core/types/heaptype.rs:51-64 `AbsHeapType` -/
inductive AbsHeapType where
  | Exn | Array | Struct | I31 | Eq | Any | Extern | Func | None | NoExtern | NoFunc | NoExn
  deriving DecidableEq, Repr

/-- src/core/types/heaptype.rs:45-48 `HeapType` -/
inductive HeapType where
  | Ht (t : AbsHeapType)
  | TypeIdx (x : UInt32)
  deriving DecidableEq, Repr

/-- src/core/types/reftype.rs:10-13 -/
structure RefType where
  nullable : Bool
  ht : HeapType
  deriving DecidableEq, Repr

/-- src/core/types/valtype.rs:12-16 -/
inductive ValType where
  | Num (t : NumType)
  | Vec (t : VecType)
  | Ref (t : RefType)
  deriving DecidableEq, Repr

/-- src/core/types/globaltype.rs:12-15 `Mut` -/
inductive Mut where | Const | Var
  deriving DecidableEq, Repr

/-- src/core/types/globaltype.rs:9 `GlobalType` -/
structure GlobalType where
  mutability : Mut
  valtype : ValType
  deriving DecidableEq, Repr

/-- src/core/types/comptype.rs:31-34 `PackType` -/
inductive PackType where | I8 | I16
  deriving DecidableEq, Repr

/-- src/core/types/comptype.rs:25-28 `StorageType` -/
inductive StorageType where
  | ValType (t : ValType)
  | PackType (t : PackType)
  deriving DecidableEq, Repr

/-- src/core/types/comptype.rs:22 `FieldType` -/
structure FieldType where
  mutability : Mut
  storage : StorageType
  deriving DecidableEq, Repr

/-- src/core/types/comptype.rs:10-17 `CompType` -/
inductive CompType where
  | Struct (fields : List FieldType)
  | Array (field : FieldType)
  | Func (parameters results : List ValType)
  deriving DecidableEq, Repr

/-- src/core/types/rectype.rs:14-18 `SubType` -/
structure SubType where
  is_final : Bool
  supertypes : List TypeIdx
  comptype : CompType
  deriving DecidableEq, Repr

/-- src/core/types/rectype.rs:11 `RecType` -/
structure RecType where
  subtypes : List SubType
  deriving DecidableEq, Repr

/-- src/core/types/limits.rs:9-13 -/
structure Limits where
  address_type : AddrType
  min : UInt64
  max : Option UInt64
  deriving DecidableEq, Repr

/-- src/core/types/memtype.rs:12-14 `MemType` (its unused duplicates of `Data` are omitted) -/
structure MemType where
  limits : Limits
  deriving DecidableEq, Repr

/-- src/core/types/tabletype.rs:11-14 -/
structure TableType where
  reftype : RefType
  limits : Limits
  deriving DecidableEq, Repr

/-- src/core/types/tagtype.rs:10 -/
structure TagType where
  idx : TypeIdx
  deriving DecidableEq, Repr

/-- src/core/types/externtype.rs:10-16 -/
inductive ExternType where
  | Func (x : TypeIdx)
  | Table (t : TableType)
  | Mem (t : MemType)
  | Global (t : GlobalType)
  | Tag (t : TagType)
  deriving DecidableEq, Repr

end Wadec
