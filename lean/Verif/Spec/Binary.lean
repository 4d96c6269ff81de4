import Verif.Core.Syntax

/-! The binary format of the WebAssembly 3.0 core specification (chapter 5), as relations
`B… bs v` : "the byte string `bs` is an encoding of the value `v`".  Written from the
specification; nothing here refers to the model of the decoder. -/

namespace Wadec.Spec

abbrev Bytes := List UInt8

/-! ### Integers (5.2.2) -/

/-- `uN ::= n:byte ⇒ n  (if n < 2^7 ∧ n < 2^N)  |  n:byte m:u(N−7) ⇒ 2^7·m + (n − 2^7)
(if n ≥ 2^7 ∧ N > 7)` -/
inductive BU : Nat → Bytes → Nat → Prop
  | last {N : Nat} {n : UInt8} : n.toNat < 2 ^ 7 → n.toNat < 2 ^ N → BU N [n] n.toNat
  | more {N : Nat} {n : UInt8} {bs : Bytes} {m : Nat} : n.toNat ≥ 2 ^ 7 → N > 7 → BU (N - 7) bs m →
      BU N (n :: bs) (2 ^ 7 * m + (n.toNat - 2 ^ 7))

/-- `sN ::= n:byte ⇒ n  (if n < 2^6 ∧ n < 2^(N−1))  |  n:byte ⇒ n − 2^7  (if 2^6 ≤ n < 2^7 ∧
n ≥ 2^7 − 2^(N−1))  |  n:byte m:s(N−7) ⇒ 2^7·m + (n − 2^7)  (if n ≥ 2^7 ∧ N > 7)` -/
inductive BS : Nat → Bytes → Int → Prop
  | pos {N : Nat} {n : UInt8} : n.toNat < 2 ^ 6 → n.toNat < 2 ^ (N - 1) → BS N [n] n.toNat
  | neg {N : Nat} {n : UInt8} : 2 ^ 6 ≤ n.toNat → n.toNat < 2 ^ 7 →
      (n.toNat : Int) ≥ 2 ^ 7 - 2 ^ (N - 1) → BS N [n] ((n.toNat : Int) - 2 ^ 7)
  | more {N : Nat} {n : UInt8} {bs : Bytes} {m : Int} : n.toNat ≥ 2 ^ 7 → N > 7 → BS (N - 7) bs m →
      BS N (n :: bs) (2 ^ 7 * m + ((n.toNat : Int) - 2 ^ 7))

def BU32 (bs : Bytes) (v : UInt32) : Prop := BU 32 bs v.toNat
def BU64 (bs : Bytes) (v : UInt64) : Prop := BU 64 bs v.toNat
def BI32 (bs : Bytes) (v : Int32) : Prop := BS 32 bs v.toInt
def BI64 (bs : Bytes) (v : Int64) : Prop := BS 64 bs v.toInt
/-- `s33`, carried in 64 bits -/
def BS33 (bs : Bytes) (v : Int64) : Prop := BS 33 bs v.toInt

/-! ### Bytes, floats, lists, names (5.2.1, 5.2.3, 5.1.3, 5.2.4) -/

/-- The `k` little-endian bytes of `n`: byte number `i` is digit `i` of `n` in base 256. -/
def leBytes (k n : Nat) : Bytes := (List.range k).map (fun i => UInt8.ofNat (n / 256 ^ i))

/-- `f32`: the IEEE 754 bit pattern in little-endian order -/
def BF32 (bs : Bytes) (bits : UInt32) : Prop := bs = leBytes 4 bits.toNat
def BF64 (bs : Bytes) (bits : UInt64) : Prop := bs = leBytes 8 bits.toNat

/-- A sequence of encodings. -/
inductive BSeq {α : Type} (B : Bytes → α → Prop) : Bytes → List α → Prop
  | nil : BSeq B [] []
  | cons {b bs : Bytes} {x : α} {xs : List α} : B b x → BSeq B bs xs → BSeq B (b ++ bs) (x :: xs)

/-- `list(B) ::= n:u32 (el:B)^n ⇒ el^n` -/
inductive BList {α : Type} (B : Bytes → α → Prop) : Bytes → List α → Prop
  | mk {b bs : Bytes} {xs : List α} : BU 32 b xs.length → BSeq B bs xs → BList B (b ++ bs) xs

/-- A single byte. -/
def BByte (bs : Bytes) (b : UInt8) : Prop := bs = [b]

/-- `vec(byte)` -/
def BByteVec (bs : Bytes) (v : Bytes) : Prop := BList BByte bs v

/-- `utf8(ch)` (5.2.4): the UTF-8 encoding of one Unicode scalar value. -/
def utf8Char (c : Char) : Bytes :=
  let n := c.val.toNat
  if n < 0x80 then [UInt8.ofNat n]
  else if n < 0x800 then [UInt8.ofNat (0xC0 + n / 0x40), UInt8.ofNat (0x80 + n % 0x40)]
  else if n < 0x10000 then
    [UInt8.ofNat (0xE0 + n / 0x1000), UInt8.ofNat (0x80 + n / 0x40 % 0x40),
     UInt8.ofNat (0x80 + n % 0x40)]
  else
    [UInt8.ofNat (0xF0 + n / 0x40000), UInt8.ofNat (0x80 + n / 0x1000 % 0x40),
     UInt8.ofNat (0x80 + n / 0x40 % 0x40), UInt8.ofNat (0x80 + n % 0x40)]

/-- A byte string is valid UTF-8 if it encodes some sequence of Unicode scalar values. -/
def ValidUtf8 (bs : Bytes) : Prop := ∃ cs : List Char, bs = cs.flatMap utf8Char

/-- `name ::= b*:list(byte) ⇒ name  (if utf8(name) = b*)` -/
def BName (bs : Bytes) (s : Str) : Prop := BByteVec bs s.bytes ∧ ValidUtf8 s.bytes

/-! ### Indices (5.5.1) -/

def BTypeIdx (bs : Bytes) (x : TypeIdx) : Prop := BU32 bs x.val
def BFuncIdx (bs : Bytes) (x : FuncIdx) : Prop := BU32 bs x.val
def BTableIdx (bs : Bytes) (x : TableIdx) : Prop := BU32 bs x.val
def BMemIdx (bs : Bytes) (x : MemIdx) : Prop := BU32 bs x.val
def BGlobalIdx (bs : Bytes) (x : GlobalIdx) : Prop := BU32 bs x.val
def BElemIdx (bs : Bytes) (x : ElemIdx) : Prop := BU32 bs x.val
def BDataIdx (bs : Bytes) (x : DataIdx) : Prop := BU32 bs x.val
def BLocalIdx (bs : Bytes) (x : LocalIdx) : Prop := BU32 bs x.val
def BLabelIdx (bs : Bytes) (x : LabelIdx) : Prop := BU32 bs x.val
def BTagIdx (bs : Bytes) (x : TagIdx) : Prop := BU32 bs x.val

/-! ### Types (5.3) -/

/-- `absheaptype` -/
inductive BAbsHeapType : Bytes → AbsHeapType → Prop
  | noexn : BAbsHeapType [0x74] .NoExn
  | nofunc : BAbsHeapType [0x73] .NoFunc
  | noextern : BAbsHeapType [0x72] .NoExtern
  | none : BAbsHeapType [0x71] .None
  | func : BAbsHeapType [0x70] .Func
  | extern : BAbsHeapType [0x6F] .Extern
  | any : BAbsHeapType [0x6E] .Any
  | eq : BAbsHeapType [0x6D] .Eq
  | i31 : BAbsHeapType [0x6C] .I31
  | struct : BAbsHeapType [0x6B] .Struct
  | array : BAbsHeapType [0x6A] .Array
  | exn : BAbsHeapType [0x69] .Exn

/-- `heaptype ::= ht:absheaptype ⇒ ht | x:s33 ⇒ x (if x ≥ 0)` -/
inductive BHeapType : Bytes → HeapType → Prop
  | abs {bs : Bytes} {t : AbsHeapType} : BAbsHeapType bs t → BHeapType bs (.Ht t)
  | idx {bs : Bytes} {x : UInt32} : BS 33 bs x.toNat → BHeapType bs (.TypeIdx x)

/-- `reftype ::= 0x64 ht ⇒ ref ht | 0x63 ht ⇒ ref null ht | ht:absheaptype ⇒ ref null ht` -/
inductive BRefType : Bytes → RefType → Prop
  | ref {bs : Bytes} {ht : HeapType} : BHeapType bs ht → BRefType (0x64 :: bs) ⟨false, ht⟩
  | refNull {bs : Bytes} {ht : HeapType} : BHeapType bs ht → BRefType (0x63 :: bs) ⟨true, ht⟩
  | abs {bs : Bytes} {t : AbsHeapType} : BAbsHeapType bs t → BRefType bs ⟨true, .Ht t⟩

/-- `valtype ::= numtype | vectype | reftype` -/
inductive BValType : Bytes → ValType → Prop
  | i32 : BValType [0x7F] (.Num .Int32)
  | i64 : BValType [0x7E] (.Num .Int64)
  | f32 : BValType [0x7D] (.Num .Float32)
  | f64 : BValType [0x7C] (.Num .Float64)
  | v128 : BValType [0x7B] (.Vec .V128)
  | ref {bs : Bytes} {t : RefType} : BRefType bs t → BValType bs (.Ref t)

/-- `resulttype ::= t*:list(valtype)` -/
def BResultType : Bytes → List ValType → Prop := BList BValType

/-- `mut ::= 0x00 ⇒ const | 0x01 ⇒ var` -/
inductive BMut : Bytes → Mut → Prop
  | const : BMut [0x00] .Const
  | var : BMut [0x01] .Var

/-- `globaltype ::= t:valtype m:mut` -/
inductive BGlobalType : Bytes → GlobalType → Prop
  | mk {b1 b2 : Bytes} {t : ValType} {m : Mut} : BValType b1 t → BMut b2 m →
      BGlobalType (b1 ++ b2) ⟨m, t⟩

/-- `packtype ::= 0x77 ⇒ i16 | 0x78 ⇒ i8`, `storagetype ::= valtype | packtype` -/
inductive BStorageType : Bytes → StorageType → Prop
  | i16 : BStorageType [0x77] (.PackType .I16)
  | i8 : BStorageType [0x78] (.PackType .I8)
  | val {bs : Bytes} {t : ValType} : BValType bs t → BStorageType bs (.ValType t)

/-- `fieldtype ::= st:storagetype m:mut` -/
inductive BFieldType : Bytes → FieldType → Prop
  | mk {b1 b2 : Bytes} {t : StorageType} {m : Mut} : BStorageType b1 t → BMut b2 m →
      BFieldType (b1 ++ b2) ⟨m, t⟩

/-- `comptype ::= 0x5E ft | 0x5F ft*:list(fieldtype) | 0x60 t1*:resulttype t2*:resulttype` -/
inductive BCompType : Bytes → CompType → Prop
  | array {bs : Bytes} {ft : FieldType} : BFieldType bs ft → BCompType (0x5E :: bs) (.Array ft)
  | struct {bs : Bytes} {fts : List FieldType} : BList BFieldType bs fts →
      BCompType (0x5F :: bs) (.Struct fts)
  | func {b1 b2 : Bytes} {t1 t2 : List ValType} : BResultType b1 t1 → BResultType b2 t2 →
      BCompType (0x60 :: (b1 ++ b2)) (.Func t1 t2)

/-- `subtype ::= 0x4F x*:list(typeidx) ct ⇒ sub final x* ct | 0x50 x*:list(typeidx) ct ⇒ sub x* ct
| ct:comptype ⇒ sub final ε ct` -/
inductive BSubType : Bytes → SubType → Prop
  | final {b1 b2 : Bytes} {xs : List TypeIdx} {ct : CompType} : BList BTypeIdx b1 xs →
      BCompType b2 ct → BSubType (0x4F :: (b1 ++ b2)) ⟨true, xs, ct⟩
  | open {b1 b2 : Bytes} {xs : List TypeIdx} {ct : CompType} : BList BTypeIdx b1 xs →
      BCompType b2 ct → BSubType (0x50 :: (b1 ++ b2)) ⟨false, xs, ct⟩
  | comp {bs : Bytes} {ct : CompType} : BCompType bs ct → BSubType bs ⟨true, [], ct⟩

/-- `rectype ::= 0x4E st*:list(subtype) ⇒ rec st* | st:subtype ⇒ rec st` -/
inductive BRecType : Bytes → RecType → Prop
  | group {bs : Bytes} {sts : List SubType} : BList BSubType bs sts → BRecType (0x4E :: bs) ⟨sts⟩
  | single {bs : Bytes} {st : SubType} : BSubType bs st → BRecType bs ⟨[st]⟩

/-- `limits ::= 0x00 n:u64 ⇒ i32 [n..] | 0x01 n:u64 m:u64 ⇒ i32 [n..m] | 0x04 n:u64 ⇒ i64 [n..] |
0x05 n:u64 m:u64 ⇒ i64 [n..m]` -/
inductive BLimits : Bytes → Limits → Prop
  | i32Min {b : Bytes} {n : UInt64} : BU64 b n → BLimits (0x00 :: b) ⟨.I32, n, none⟩
  | i32MinMax {b1 b2 : Bytes} {n m : UInt64} : BU64 b1 n → BU64 b2 m →
      BLimits (0x01 :: (b1 ++ b2)) ⟨.I32, n, some m⟩
  | i64Min {b : Bytes} {n : UInt64} : BU64 b n → BLimits (0x04 :: b) ⟨.I64, n, none⟩
  | i64MinMax {b1 b2 : Bytes} {n m : UInt64} : BU64 b1 n → BU64 b2 m →
      BLimits (0x05 :: (b1 ++ b2)) ⟨.I64, n, some m⟩

/-- `memtype ::= lim:limits` -/
def BMemType (bs : Bytes) (t : MemType) : Prop := BLimits bs t.limits

/-- `tabletype ::= rt:reftype lim:limits` -/
inductive BTableType : Bytes → TableType → Prop
  | mk {b1 b2 : Bytes} {rt : RefType} {lim : Limits} : BRefType b1 rt → BLimits b2 lim →
      BTableType (b1 ++ b2) ⟨rt, lim⟩

/-- `tagtype ::= 0x00 x:typeidx` -/
inductive BTagType : Bytes → TagType → Prop
  | mk {bs : Bytes} {x : TypeIdx} : BTypeIdx bs x → BTagType (0x00 :: bs) ⟨x⟩

/-- `externtype ::= 0x00 x:typeidx | 0x01 tt:tabletype | 0x02 mt:memtype | 0x03 gt:globaltype |
0x04 jt:tagtype` -/
inductive BExternType : Bytes → ExternType → Prop
  | func {bs : Bytes} {x : TypeIdx} : BTypeIdx bs x → BExternType (0x00 :: bs) (.Func x)
  | table {bs : Bytes} {t : TableType} : BTableType bs t → BExternType (0x01 :: bs) (.Table t)
  | mem {bs : Bytes} {t : MemType} : BMemType bs t → BExternType (0x02 :: bs) (.Mem t)
  | global {bs : Bytes} {t : GlobalType} : BGlobalType bs t → BExternType (0x03 :: bs) (.Global t)
  | tag {bs : Bytes} {t : TagType} : BTagType bs t → BExternType (0x04 :: bs) (.Tag t)

end Wadec.Spec
