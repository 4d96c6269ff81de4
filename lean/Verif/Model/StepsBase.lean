import Verif.Model.Module

/-! A monad that counts steps, for Verif/Model/Steps.lean.  In `namespace Wadec.Counted` the name `Dec` stands for decoders that
also return the number of steps; the definitions mirror those of Verif/Model/Io.lean.

What is a step: a call of a function, an iteration of a loop, a call of the reader's `read`, a byte that such a call delivers, a
byte that the UTF-8 check looks at, an instruction that the search for data indices looks at, an element of a vector that is
converted.  The price of pushing a local is a parameter (`push`).  Not counted: zeroing of fresh vectors and growth of vectors by
the allocator, and dropping values. -/

namespace Wadec.Counted

/-- A decoding function of src/decode/*.rs that also returns the number of steps it has taken. -/
def Dec (R ε α : Type) : Type := R → (Res ε α × R) × Nat

namespace Dec
variable {R ε ε' α β : Type}

/-- `n` steps before (throughout src/decode/*.rs) -/
def more (n : Nat) (x : (Res ε α × R) × Nat) : (Res ε α × R) × Nat := (x.1, n + x.2)

/-- one step: the call of the function, or the iteration of the loop (throughout src/decode/*.rs) -/
def step (d : Dec R ε α) : Dec R ε α := fun r => more 1 (d r)

/-- `n` steps (throughout src/decode/*.rs) -/
def charge (n : Nat) : Dec R ε Unit := fun r => ((.ok (), r), n)

/-- `Ok(a)`, throughout src/decode/*.rs -/
def ok (a : α) : Dec R ε α := fun r => ((.ok a, r), 0)

/-- `return Err(e)`, throughout src/decode/*.rs -/
def err (e : ε) : Dec R ε α := fun r => ((.err e, r), 0)

/-- a Rust panic, throughout src/decode/*.rs -/
def panic : Dec R ε α := fun r => ((.panic, r), 0)

/-- step budget used up (model artefact, nothing in src/decode/*.rs) -/
def outOfFuel : Dec R ε α := fun r => ((.fuel, r), 0)

/-- `let a = d?; f(a)`, throughout src/decode/*.rs -/
def bind (d : Dec R ε α) (f : α → Dec R ε β) : Dec R ε β := fun r =>
  match d r with
  | ((.ok a, r'), n) => more n (f a r')
  | ((.err e, r'), n) => ((.err e, r'), n)
  | ((.panic, r'), n) => ((.panic, r'), n)
  | ((.fuel, r'), n) => ((.fuel, r'), n)

/-- `?` in sequence, throughout src/decode/*.rs -/
instance : Monad (Dec R ε) where
  pure := Dec.ok
  bind := Dec.bind

/-- `d.map_err(f)`, throughout src/decode/*.rs -/
def mapErr (f : ε → ε') (d : Dec R ε α) : Dec R ε' α := fun r =>
  match d r with
  | ((.ok a, r'), n) => ((.ok a, r'), n)
  | ((.err e, r'), n) => ((.err (f e), r'), n)
  | ((.panic, r'), n) => ((.panic, r'), n)
  | ((.fuel, r'), n) => ((.fuel, r'), n)

/-- a failed attempt is discarded, but not the steps it has taken (src/decode/instructions.rs:1092) -/
def orElseDiscard (d : Dec R ε α) (f : α → β) (g : Dec R ε' β) : Dec R ε' β := fun r =>
  match d r with
  | ((.ok a, r'), n) => ((.ok (f a), r'), n)
  | ((.err _, r'), n) => more n (g r')
  | ((.panic, r'), n) => ((.panic, r'), n)
  | ((.fuel, r'), n) => ((.fuel, r'), n)

/-- Run `d` on `Cursor::new([b]).chain(reader)` (src/decode/types/*.rs and the other lines listed at `Chain`) -/
def withChain (b : UInt8) (d : Dec (Chain R) ε α) : Dec R ε α := fun r =>
  match d { first := [b], inner := r } with
  | ((res, c), n) => ((res, c.inner), n)

/-- Run `d` on `reader.take(n)` (src/decode/module.rs:224, src/decode/sections/code.rs:53) -/
def withTake (n : Nat) (d : Dec (Take R) ε α) : Dec R ε (α × Nat) := fun r =>
  match d { limit := n, inner := r } with
  | ((.ok a, t), n) => ((.ok (a, t.limit), t.inner), n)
  | ((.err e, t), n) => ((.err e, t.inner), n)
  | ((.panic, t), n) => ((.panic, t.inner), n)
  | ((.fuel, t), n) => ((.fuel, t.inner), n)

/-- src/decode/helpers.rs:111, 160: one call of the allocator -/
def reserve [Read R] (n : Nat) : Dec R ε Unit := fun r => ((.ok (), Read.reserve n r), 1)

end Dec

/-- The loop of std's `default_read_exact` (src/decode/helpers.rs:10, 76, 88, 161): a step for the iteration and one for every byte
that has arrived. -/
def readExactLoop {R : Type} [Read R] : Nat → Nat → List UInt8 → Dec R IoError (List UInt8)
  | 0, _, _ => Dec.step <| Dec.outOfFuel
  | f + 1, n, acc => Dec.step fun r =>
    if n = 0 then ((.ok acc, r), 0)
    else
      match Read.read n r with
      | (.ok [], r') => ((.err .unexpectedEof, r'), 0)
      | (.ok (b :: bs), r') => Dec.more (b :: bs).length (readExactLoop f (n - (b :: bs).length) (acc ++ (b :: bs)) r')
      | (.error .interrupted, r') => readExactLoop f n acc r'
      | (.error e, r') => ((.err e, r'), 0)

/-- `reader.read_exact(&mut buf)` (src/decode/helpers.rs:10, 76, 88, 161) with `buf.len() = n`, counting steps. -/
def readExact {R : Type} [Read R] (n : Nat) : Dec R IoError (List UInt8) := Dec.step fun r =>
  readExactLoop (Read.weight r + 1) n [] r

/-- The loop of std's `default_read_to_end` (src/decode/sections/custom.rs:20), counting steps. -/
def readToEndLoop {R : Type} [Read R] : Nat → List UInt8 → Dec R IoError (List UInt8)
  | 0, _ => Dec.step <| Dec.outOfFuel
  | f + 1, acc => Dec.step fun r =>
    match Read.read (Read.room r + 1) r with
    | (.ok [], r') => ((.ok acc, r'), 0)
    | (.ok (b :: bs), r') => Dec.more (b :: bs).length (readToEndLoop f (acc ++ (b :: bs)) r')
    | (.error .interrupted, r') => readToEndLoop f acc r'
    | (.error e, r') => ((.err e, r'), 0)

/-- `reader.read_to_end(&mut contents)` (src/decode/sections/custom.rs:20), counting steps. -/
def readToEnd {R : Type} [Read R] : Dec R IoError (List UInt8) := Dec.step fun r =>
  readToEndLoop (Read.weight r + 1) [] r

/-- src/decode/helpers.rs:8-12 `read_byte`, counting steps. -/
def readByte {R : Type} [Read R] : Dec R IoError UInt8 := Dec.step <| do
  let buf ← readExact 1
  match buf with
  | [b] => pure b
  | _ => Dec.panic

mutual
/-- src/decode/helpers.rs:47-66 `instruction_contains_data_index`: the number of instructions it looks at -/
def scanned : Instr → Nat
  | .Block _ body => 1 + scannedAny body
  | .Loop _ body => 1 + scannedAny body
  | .TryTable _ _ body => 1 + scannedAny body
  | .If _ thenBody elseBody =>
    1 + scannedAny thenBody + (if anyContainsDataIdx thenBody then 0 else scannedOpt elseBody)
  | _ => 1
/-- src/decode/helpers.rs:56, 59, 62: `body.iter().any(instruction_contains_data_index)` stops at the first hit -/
def scannedAny : List Instr → Nat
  | [] => 0
  | i :: is => scanned i + (if containsDataIdx i then 0 else scannedAny is)
/-- src/decode/helpers.rs:60-62 -/
def scannedOpt : Option (List Instr) → Nat
  | none => 0
  | some body => scannedAny body
end

end Wadec.Counted
