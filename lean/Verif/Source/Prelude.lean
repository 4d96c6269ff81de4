import Verif.Model.Module

/-! What the mechanical translation of src/decode/**/*.rs (tools/rs2lean.py, the other files of this
directory) refers to: the Rust language constructs and std functions used there, over the reader layer of
Model/Io.lean.  Nothing here mentions the model of the decoders. -/

namespace Wadec.Source

variable {R : Type} [Read R] {ε ε' α β : Type}

/-! ### `From`, `?`, `unwrap` -/

/-- std `From<α> for β`; the instances for the error types of /repo are generated from `#[from]`. -/
class From (α β : Type) where
  from_ : α → β

/-- std `impl<T> From<T> for T` -/
instance (priority := low) : From α α := ⟨id⟩
/-- std `impl From<u8> for u32` (`u32::from` at src/decode/integer.rs:28) -/
instance : From UInt8 UInt32 := ⟨UInt8.toUInt32⟩
/-- std `impl From<u8> for u64` (src/decode/integer.rs:72) -/
instance : From UInt8 UInt64 := ⟨UInt8.toUInt64⟩
/-- std `impl From<u8> for i64` (src/decode/integer.rs:119, 159, 210) -/
instance : From UInt8 Int64 := ⟨fun b => b.toUInt64.toInt64⟩
/-- std `impl From<u32> for u64` (src/decode/sections/code.rs:53, 55, 104, src/decode/module.rs:224) -/
instance : From UInt32 UInt64 := ⟨UInt32.toUInt64⟩

/-- The operator `?`, throughout src/decode/*.rs: the error is converted by `From`. -/
def q [From ε ε'] (d : Dec R ε α) : Dec R ε' α := Dec.mapErr From.from_ d

/-- A `Result` that is matched on instead of propagated (src/decode/types/heaptype.rs:26,
types/comptype.rs:109, 115, instructions.rs:1092, module.rs:388). -/
def attempt (d : Dec R ε α) : Dec R ε' (Except ε α) := fun r =>
  match d r with
  | (.ok a, r') => (.ok (.ok a), r')
  | (.err e, r') => (.ok (.error e), r')
  | (.panic, r') => (.panic, r')
  | (.fuel, r') => (.fuel, r')

/-- `Result::unwrap`, throughout src/decode/*.rs -/
def unwrap_ok (d : Dec R ε α) : Dec R ε' α := fun r =>
  match d r with
  | (.ok a, r') => (.ok a, r')
  | (.err _, r') => (.panic, r')
  | (.panic, r') => (.panic, r')
  | (.fuel, r') => (.fuel, r')

/-- `Option::unwrap` (src/decode/module.rs:39) -/
def unwrap_some : Option α → Dec R ε α
  | some a => pure a
  | none => Dec.panic

/-! ### Conversions that can fail -/

/-- std `TryFromIntError` -/
structure TryFromIntError where

/-- std `TryFrom<α> for β` -/
class TryFrom (α β : Type) (E : outParam Type) where
  tryFrom_ : α → Except E β

/-- `β::try_from(a)` or `a.try_into()`, throughout src/decode/*.rs -/
def tryFrom {E : Type} [TryFrom α β E] (a : α) : Dec R E β :=
  match TryFrom.tryFrom_ a with
  | .ok b => pure b
  | .error e => Dec.err e

/-- std `usize::try_from(u32)` (src/decode/helpers.rs:111, 160, module.rs:292, 336): `usize` has at least
32 bits on the platforms considered. -/
instance : TryFrom UInt32 Nat TryFromIntError := ⟨fun n => .ok n.toNat⟩
/-- std `u32::try_from(i64)` (src/decode/types/heaptype.rs:36, instructions.rs:1107) -/
instance : TryFrom Int64 UInt32 TryFromIntError :=
  ⟨fun x => if 0 ≤ x.toInt ∧ x.toInt ≤ 4294967295 then .ok (UInt32.ofNat x.toInt.toNat) else .error ⟨⟩⟩
/-- std `i32::try_from(i64)` (src/decode/integer.rs:132) -/
instance : TryFrom Int64 Int32 TryFromIntError :=
  ⟨fun x => if -2147483648 ≤ x.toInt ∧ x.toInt ≤ 2147483647 then .ok (Int32.ofInt x.toInt) else .error ⟨⟩⟩
/-- std `String::try_from(Vec<u8>)` (src/decode/helpers.rs:175); `utf8Check` is std's validation. -/
instance : TryFrom (List UInt8) Str FromUtf8Error :=
  ⟨fun bs => match utf8Check 0 bs with
    | none => .ok ⟨bs⟩
    | some (n, l) => .error ⟨bs, n, l⟩⟩

/-! ### Checked arithmetic: `none` is the overflow that panics in a checked build -/

/-- `+` on an unsigned integer type -/
class CheckedAdd (α : Type) where
  add_ : α → α → Option α
/-- `-` on an unsigned integer type -/
class CheckedSub (α : Type) where
  sub_ : α → α → Option α
/-- `<<` with a `u8` amount -/
class CheckedShl (α : Type) where
  shl_ : α → UInt8 → Option α

/-- `shift += 7` on `u8`, src/decode/integer.rs:46, 90, 120, 160, 211 -/
instance : CheckedAdd UInt8 := ⟨fun a b => if a.toNat + b.toNat < 2 ^ 8 then some (a + b) else none⟩
/-- `+=` on `u64`, src/decode/sections/code.rs:104 -/
instance : CheckedAdd UInt64 := ⟨fun a b => if a.toNat + b.toNat < 2 ^ 64 then some (a + b) else none⟩
/-- `-` on `u32`, src/decode/instructions.rs:1043 -/
instance : CheckedSub UInt32 := ⟨fun a b => if b ≤ a then some (a - b) else none⟩
/-- `-` on `u64`, src/decode/sections/code.rs:67, module.rs:308 -/
instance : CheckedSub UInt64 := ⟨fun a b => if b ≤ a then some (a - b) else none⟩
/-- `<<` on `u32`, src/decode/integer.rs:28 -/
instance : CheckedShl UInt32 :=
  ⟨fun a s => if s.toNat < 32 then some (UInt32.ofBitVec (a.toBitVec <<< s.toNat)) else none⟩
/-- `<<` on `u64`, src/decode/integer.rs:72 -/
instance : CheckedShl UInt64 :=
  ⟨fun a s => if s.toNat < 64 then some (UInt64.ofBitVec (a.toBitVec <<< s.toNat)) else none⟩
/-- `<<` on `i64`, src/decode/integer.rs:119, 125, 159, 180, 210, 233 -/
instance : CheckedShl Int64 :=
  ⟨fun a s => if s.toNat < 64 then some (Int64.ofBitVec (a.toBitVec <<< s.toNat)) else none⟩

/-- `a + b`, src/decode/integer.rs:46, code.rs:104 -/
def add [CheckedAdd α] (a b : α) : Dec R ε α := unwrap_some (CheckedAdd.add_ a b)
/-- `a - b`, src/decode/instructions.rs:1043, code.rs:67, module.rs:308 -/
def sub [CheckedSub α] (a b : α) : Dec R ε α := unwrap_some (CheckedSub.sub_ a b)
/-- `a << s`, src/decode/integer.rs:28 and others -/
def shl [CheckedShl α] (a : α) (s : UInt8) : Dec R ε α := unwrap_some (CheckedShl.shl_ a s)
/-- `u32::pow` (src/decode/instructions.rs:1040, 1042, 1043) -/
def pow (a : UInt32) (n : Nat) : Dec R ε UInt32 :=
  if a.toNat ^ n < 2 ^ 32 then pure (UInt32.ofNat (a.toNat ^ n)) else Dec.panic

/-! ### Vectors, slices, arrays -/

/-- `xs[i]`, throughout src/decode/*.rs -/
def index (xs : List α) (i : Nat) : Dec R ε α := unwrap_some xs[i]?
/-- `xs[i] = a` (src/decode/module.rs:275, 283) -/
def set_index (xs : List α) (i : Nat) (a : α) : Dec R ε (List α) :=
  if i < xs.length then pure (xs.set i a) else Dec.panic
/-- `XS[i]` in a constant (src/decode/module.rs:14-23), checked by rustc -/
def constIndex (xs : List UInt8) (i : Nat) : UInt8 := xs.getD i 0
/-- `Vec::with_capacity(n)` (src/decode/helpers.rs:111) -/
def with_capacity (n : Nat) : Dec R ε (List α) := do
  Dec.reserve n
  pure []
/-- `vec![0u8; n]` (src/decode/helpers.rs:160) -/
def vec_zeroed (n : Nat) : Dec R ε (List UInt8) := do
  Dec.reserve n
  pure (List.replicate n 0)
/-- a `[u8; 16]` or `[LaneIdx; 16]` as it is stored in an `Instruction` -/
class Pack16 (α : Type) where
  bytes : List α → List UInt8
/-- `[u8; 16]`, src/decode/instructions.rs:752-755 -/
instance : Pack16 UInt8 := ⟨id⟩
/-- `[LaneIdx; 16]`, src/decode/instructions.rs:759-768 -/
instance : Pack16 LaneIdx := ⟨List.map LaneIdx.val⟩
/-- rustc checks that the length is 16. -/
def pack16 [Pack16 α] (xs : List α) : Dec R ε Bytes16 :=
  if h : (Pack16.bytes xs).length = 16 then pure ⟨Pack16.bytes xs, h⟩ else Dec.panic
/-- `Iterator::enumerate` (src/decode/module.rs:272) -/
def enumerate (xs : List α) : List (Nat × α) := xs.zipIdx.map (fun p => (p.2, p.1))
/-- `f32::from_le_bytes` (src/decode/helpers.rs:77), on bit patterns -/
def f32_from_le_bytes (bs : List UInt8) : UInt32 := UInt32.ofNat (leNat bs)
/-- `f64::from_le_bytes` (src/decode/helpers.rs:89), on bit patterns -/
def f64_from_le_bytes (bs : List UInt8) : UInt64 := UInt64.ofNat (leNat bs)

/-! ### Loops -/

/-- `lo..=hi` on `i32` (src/decode/integer.rs:25, 69, 116, 156, 207) -/
def rangeIncl (lo hi : Int32) : List Int32 :=
  (List.range (hi.toInt - lo.toInt + 1).toNat).map (fun (k : Nat) => Int32.ofInt (lo.toInt + k))
/-- `lo..hi` on `u32` (src/decode/helpers.rs:112, module.rs:274) -/
def range (lo hi : UInt32) : List UInt32 :=
  (List.range (hi.toNat - lo.toNat)).map (fun (k : Nat) => UInt32.ofNat (lo.toNat + k))

/-- The number of steps granted to a `loop` or `while` (not in /repo, a model artefact as in Model/). -/
structure Fuel where
  n : Nat

/-- `loop { .. }` with a step budget, src/decode/helpers.rs:29, instructions.rs:226, 248, 301, module.rs:223 -/
def Fuel.forIn {γ : Type} (f : Unit → γ → Dec R ε (ForInStep γ)) : Nat → γ → Dec R ε γ
  | 0, _ => Dec.outOfFuel
  | n + 1, s => do
    match ← f () s with
    | .done s => pure s
    | .yield s => Fuel.forIn f n s

/-- `loop { .. }` with a step budget, as above -/
instance : ForIn (Dec R ε) Fuel Unit := ⟨fun x s f => Fuel.forIn f x.n s⟩

/-- The step budget: more than the events left in the reader (model artefact). -/
def budget : Dec R ε Nat := fun r => (.ok (Read.weight r + 1), r)

/-- `let parsed;` (src/decode/instructions.rs:224): declared without a value, which rustc rejects if it could
be read before it is assigned; `default` stands for the missing value. -/
instance : Inhabited ParseResult := ⟨.End⟩
/-- `let mode: DataMode;` (src/decode/sections/data.rs:44), likewise -/
instance : Inhabited DataMode := ⟨.Passive⟩

/-! ### Readers and closures -/

/-- `let reader = reader.take(n); d` (src/decode/module.rs:224, sections/code.rs:53) -/
def onTake (n : UInt64) (d : Dec (Take R) ε α) : Dec R ε α := fun r =>
  match d { limit := n.toNat, inner := r } with
  | (res, t) => (res, t.inner)
/-- `Take::limit` (src/decode/module.rs:304, 308, sections/code.rs:63-68) -/
def limit : Dec (Take R) ε UInt64 := fun t => (.ok (UInt64.ofNat t.limit), t)

/-- An `FnMut(&mut R) -> Result<T, E>` with the state it captures (src/decode/helpers.rs:101-107). -/
structure FnMut (R σ E T : Type) where
  state : σ
  call : σ → Dec R E (T × σ)
/-- calling it, src/decode/helpers.rs:113 -/
def FnMut.run {σ E T : Type} (f : FnMut R σ E T) : Dec R E (T × FnMut R σ E T) := do
  let (x, s) ← f.call f.state
  pure (x, { f with state := s })
/-- a function, or a closure without mutable captures -/
def FnMut.of {E T : Type} (f : Dec R E T) : FnMut R Unit E T :=
  ⟨(), fun _ => do let x ← f; pure (x, ())⟩

end Wadec.Source
