import Verif.Spec.Module
import Verif.Spec.Context

/-! C41: what the errors about unknown marker bytes and numbers say.

A `Mark` is such a complaint: the value reported by the error, and the sort of thing that was
expected where it was found.  `Mark.Spelled m enc`: the bytes `enc` spell the reported value.
`Mark.Sort m bs`: the bytes `bs` are a thing of the expected sort, according to the grammar. -/

namespace Wadec.Spec

inductive Mark where
  /-- unknown opcode -/
  | opcode (op : Opcode)
  /-- first byte of a `catch` clause -/
  | «catch» (b : UInt8)
  /-- the nullability byte of `br_on_cast`, `br_on_cast_fail` -/
  | cast (b : UInt8)
  /-- the mutability byte of a global or field type -/
  | «mut» (b : UInt8)
  | absHeapType (b : UInt8)
  | refType (b : UInt8)
  | valType (b : UInt8)
  | storageType (b : UInt8)
  /-- a negative number instead of a type index in a heap type -/
  | heapType (x : Int64)
  /-- a negative number instead of a type index in a block type, other than `blockRef` -/
  | blockType (x : Int64)
  /-- the number −29 or −28 instead of a type index in a block type; these may be the bytes 0x63 and
  0x64 of a reference type whose heap type was not understood -/
  | blockRef (x : Int64)
  | compType (b : UInt8)
  | limits (b : UInt8)
  | tagType (b : UInt8)
  | externType (b : UInt8)
  | memarg (n : UInt32)
  | elemKind (b : UInt8)
  | elem (n : UInt32)
  | data (n : UInt32)
  /-- the byte after 0x40 in a table with initialiser -/
  | table (b : UInt8)
  | externIdx (b : UInt8)
  | sectionId (b : UInt8)
  | preamble (bs : Bytes)
  deriving DecidableEq, Repr

/-- The bytes that spell the reported value.  (The kind byte of an export is only judged after the
index that follows it has been read.) -/
def Mark.Spelled : Mark → Bytes → Prop
  | .opcode op, enc => BOpcode enc op
  | .catch b, enc => enc = [b]
  | .cast b, enc => enc = [b]
  | .mut b, enc => enc = [b]
  | .absHeapType b, enc => enc = [b]
  | .refType b, enc => enc = [b]
  | .valType b, enc => enc = [b]
  | .storageType b, enc => enc = [b]
  | .heapType x, enc => BS33 enc x
  | .blockType x, enc => BS33 enc x
  | .blockRef x, enc => BS33 enc x
  | .compType b, enc => enc = [b]
  | .limits b, enc => enc = [b]
  | .tagType b, enc => enc = [b]
  | .externType b, enc => enc = [b]
  | .memarg n, enc => BU32 enc n
  | .elemKind b, enc => enc = [b]
  | .elem n, enc => BU32 enc n
  | .data n, enc => BU32 enc n
  | .table b, enc => enc = [0x40, b]
  | .externIdx b, enc => ∃ idx n, BU32 idx n ∧ enc = b :: idx
  | .sectionId b, enc => enc = [b]
  | .preamble bs, enc => enc = bs

/-- The sort of thing that was expected there. -/
def Mark.Sort : Mark → Bytes → Prop
  | .opcode _, bs => (∃ i, BInstr bs i) ∨ (∃ t, bs = 0x0B :: t) ∨ (∃ t, bs = 0x05 :: t)
  | .catch _, bs => ∃ c, BCatch bs c
  | .cast _, bs => ∃ c, BCastop bs c
  | .mut _, bs => ∃ m, BMut bs m
  | .absHeapType _, bs => ∃ t, BAbsHeapType bs t
  | .refType _, bs => ∃ t, BRefType bs t
  | .valType _, bs => ∃ t, BValType bs t
  | .storageType _, bs => ∃ t, BStorageType bs t
  | .heapType _, bs => ∃ t, BHeapType bs t
  | .blockType _, bs => ∃ t, BBlockType bs t
  | .blockRef _, bs => ∃ x : UInt32, BS 33 bs x.toNat
  | .compType _, bs => ∃ t, BCompType bs t
  | .limits _, bs => ∃ t, BLimits bs t
  | .tagType _, bs => ∃ t, BTagType bs t
  | .externType _, bs => ∃ t, BExternType bs t
  | .memarg _, bs => ∃ m, BMemarg bs m
  | .elemKind _, bs => ∃ t, bs = 0x00 :: t
  | .elem _, bs => ∃ e, BElem bs e
  | .data _, bs => ∃ d, BData bs d
  | .table _, bs => ∃ t, BTable bs t
  | .externIdx _, bs => ∃ x, BExternIdx bs x
  | .sectionId _, bs => ∃ s, BSection bs s
  | .preamble _, bs => ∃ t, bs = Spec.preamble ++ t

/-- The complaint is justified: the bytes `enc` spell the reported value, and nothing of the
expected sort starts with them. -/
def Mark.Justified (m : Mark) (enc : Bytes) : Prop :=
  m.Spelled enc ∧ ∀ t, ¬ m.Sort (enc ++ t)

/-- Whether the reader stops right behind the offending bytes (always, except for `blockRef`). -/
def Mark.exact : Mark → Prop
  | .blockRef _ => False
  | _ => True

/-- A reference type that starts with a byte unknown as such was expected to be a value type. -/
def Mark.asValType : Mark → Mark
  | .refType b => .valType b
  | m => m

/-- A value type that starts with a byte unknown as such was expected to be a storage type. -/
def Mark.asStorageType : Mark → Mark
  | .valType b => .storageType b
  | m => m

end Wadec.Spec
