/-
Model of the reader layer that wadec is written against: `std::io::Read` and the adapters
`Take` (`Read::take`) and `Chain` (`Cursor::new([b]).chain(reader)`), and of the outcome type of
the decoding functions (`Result<T, E>` plus the possibility of a Rust panic).

The std functions are not part of /repo; they are modelled after the documented behaviour and the
implementation in the Rust standard library (`library/std/src/io/mod.rs`), because wadec's
observable behaviour depends on them.  See DESIGN.md, "Trusted base".
-/

namespace Wadec

/-- The kinds of `std::io::Error` the code distinguishes: `ErrorKind::Interrupted` (retried by
std's `read_exact` and `read_to_end`), `ErrorKind::UnexpectedEof` (tested in
src/decode/module.rs:390), and everything else, identified by an opaque code. -/
inductive IoError where
  | interrupted
  | unexpectedEof
  | other (code : Nat)
  deriving DecidableEq, Repr

/-- Outcome of a decoding function `fn(..) -> Result<T, E>` of /repo/src/decode/*.rs (e.g.
src/decode/module.rs:207):
`ok`/`err` are the two `Result` variants.  `panic` stands for a Rust panic (failed `unwrap`,
`unreachable!()`, index out of bounds, arithmetic or shift overflow in a checked build).
`fuel` is an artefact of the model: a loop used up its step budget; it is proved unreachable. -/
inductive Res (ε α : Type) where
  | ok (a : α)
  | err (e : ε)
  | panic
  | fuel
  deriving Repr, DecidableEq

/-- The `std::io::Read` trait, restricted to what wadec uses (`Read` in the signatures of src/decode/**/*.rs).  `read n r` models
`r.read(&mut buf)` with `buf.len() = n`: the bytes put into the buffer (an empty list is `Ok(0)`,
end of file) or an error, and the reader afterwards.
`weight` is used only to give std's retry loops a step budget.
`reserve n` has no effect in Rust's `Read`; it logs in the model that the code asked the allocator
for room for `n` elements (`Vec::with_capacity(n)` / `vec![0u8; n]`).
`room r + 1` is the size of the buffer that std's `read_to_end` offers in its next call; std picks it
from the room left in its vector and the results of earlier calls, so it is left open here (it is part
of what a reader is in the model, though not in Rust). -/
class Read (R : Type) where
  read : Nat → R → Except IoError (List UInt8) × R
  weight : R → Nat
  reserve : Nat → R → R
  room : R → Nat

/-! ### The user's reader: an arbitrary finite schedule of `read` results -/

/-- One scripted result of the user-supplied `impl Read` passed to `decode_module`
(src/decode/module.rs:207): a chunk of bytes (delivered in several pieces if the buffer is
smaller; `data []` is a zero-length read, i.e. end of file at that point) or an I/O error. -/
inductive Ev where
  | data (bs : List UInt8)
  | fail (e : IoError)
  deriving DecidableEq, Repr

/-- The user-supplied reader (`input` of src/decode/module.rs:207): the script of what its `read` calls deliver (after the script every
`read` is `Ok(0)`), and the log of allocation requests made so far (see `Read.reserve`). -/
structure Src where
  evs : List Ev
  log : List Nat := []
  deriving Repr

/-- `read` of the user-supplied reader (src/decode/module.rs:207): a chunk longer than the buffer is delivered piecewise. -/
def Src.read (n : Nat) (s : Src) : Except IoError (List UInt8) × Src :=
  match s.evs with
  | [] => (.ok [], s)
  | .fail e :: t => (.error e, { s with evs := t })
  | .data bs :: t =>
    if bs.length ≤ n then (.ok bs, { s with evs := t })
    else (.ok (bs.take n), { s with evs := .data (bs.drop n) :: t })

/-- Number of bytes and events left in the script (not in /repo: gives the loops a step budget). -/
def Src.evsWeight : List Ev → Nat
  | [] => 0
  | .data bs :: t => bs.length + 1 + Src.evsWeight t
  | .fail _ :: t => 1 + Src.evsWeight t

/-- The user's `input` of src/decode/module.rs:207 is a reader. -/
instance : Read Src where
  read := Src.read
  weight s := Src.evsWeight s.evs
  reserve n s := { s with log := s.log ++ [n] }
  room _ := 31

/-- A reader over an in-memory byte string, e.g. `&[u8]` or a file: everything in one chunk (a possible
`input` of src/decode/module.rs:207). -/
def Src.ofBytes (bs : List UInt8) : Src := { evs := [.data bs] }

/-! ### `Read::take` and `Read::chain` -/

/-- `std::io::Take<R>` (used at src/decode/module.rs:224 and src/decode/sections/code.rs:53). -/
structure Take (R : Type) where
  limit : Nat
  inner : R
  deriving Repr

/-- std, `<Take<R> as Read>::read`: at limit 0 the inner reader is not called at all.  (For `take` at
src/decode/module.rs:224 and src/decode/sections/code.rs:53.) -/
def Take.read {R : Type} [Read R] (n : Nat) (t : Take R) : Except IoError (List UInt8) × Take R :=
  if t.limit = 0 then (.ok [], t)
  else
    match Read.read (min n t.limit) t.inner with
    | (.ok bs, i) => (.ok bs, { limit := t.limit - bs.length, inner := i })
    | (.error e, i) => (.error e, { limit := t.limit, inner := i })

/-- std, `impl<R: Read> Read for Take<R>` (src/decode/module.rs:224, src/decode/sections/code.rs:53). -/
instance {R : Type} [Read R] : Read (Take R) where
  read := Take.read
  weight t := Read.weight t.inner
  reserve n t := { t with inner := Read.reserve n t.inner }
  room t := Read.room t.inner

/-- `std::io::Chain<Cursor<[u8; 1]>, R>` (used at src/decode/types/valtype.rs:28, reftype.rs:36,
comptype.rs:114, rectype.rs:31, 72, heaptype.rs:30, src/decode/sections/table.rs:54 and
src/decode/instructions.rs:1091, 1101): `first` is what is left of the cursor.  (std's
`done_first` flag is not modelled: an exhausted cursor keeps returning `Ok(0)`, so the flag does
not change what is read.) -/
structure Chain (R : Type) where
  first : List UInt8
  inner : R
  deriving Repr

/-- std, `<Chain<Cursor<_>, R> as Read>::read`: the cursor first, the second reader once it is empty.
(For `chain` in src/decode/types/*.rs and the other lines listed at `Chain`.) -/
def Chain.read {R : Type} [Read R] (n : Nat) (c : Chain R) :
    Except IoError (List UInt8) × Chain R :=
  match c.first with
  | [] =>
    match Read.read n c.inner with
    | (res, i) => (res, { first := [], inner := i })
  | b :: bs => (.ok ((b :: bs).take n), { c with first := (b :: bs).drop n })

/-- std, `impl<T: Read, U: Read> Read for Chain<T, U>` (src/decode/types/*.rs and the other lines listed at `Chain`). -/
instance {R : Type} [Read R] : Read (Chain R) where
  read := Chain.read
  weight c := c.first.length + Read.weight c.inner
  reserve n c := { c with inner := Read.reserve n c.inner }
  room c := Read.room c.inner

/-! ### Decoders -/

/-- A decoding function `fn(reader: &mut R) -> Result<α, ε>` of src/decode/*.rs: the mutated reader is returned, also
when decoding fails. -/
def Dec (R ε α : Type) : Type := R → Res ε α × R

namespace Dec
variable {R ε ε' α β : Type}

/-- `Ok(a)`, throughout src/decode/*.rs -/
def ok (a : α) : Dec R ε α := fun r => (.ok a, r)

/-- `return Err(e)`, throughout src/decode/*.rs -/
def err (e : ε) : Dec R ε α := fun r => (.err e, r)

/-- a Rust panic (`unwrap`, `unreachable!`, indexing, arithmetic), throughout src/decode/*.rs -/
def panic : Dec R ε α := fun r => (.panic, r)

/-- step budget used up (model artefact, nothing in src/decode/*.rs) -/
def outOfFuel : Dec R ε α := fun r => (.fuel, r)

/-- `let a = d?; f(a)`, throughout src/decode/*.rs -/
def bind (d : Dec R ε α) (f : α → Dec R ε β) : Dec R ε β := fun r =>
  match d r with
  | (.ok a, r') => f a r'
  | (.err e, r') => (.err e, r')
  | (.panic, r') => (.panic, r')
  | (.fuel, r') => (.fuel, r')

/-- `?` in sequence, throughout src/decode/*.rs -/
instance : Monad (Dec R ε) where
  pure := Dec.ok
  bind := Dec.bind

/-- `d.map_err(f)`, or the `From` conversion that `?` applies, throughout src/decode/*.rs. -/
def mapErr (f : ε → ε') (d : Dec R ε α) : Dec R ε' α := fun r =>
  match d r with
  | (.ok a, r') => (.ok a, r')
  | (.err e, r') => (.err (f e), r')
  | (.panic, r') => (.panic, r')
  | (.fuel, r') => (.fuel, r')

/-- `if let Ok(a) = d { return Ok(f(a)) }; g` : a failed attempt is discarded, but what it has
consumed from the reader stays consumed.  (src/decode/instructions.rs:1092) -/
def orElseDiscard (d : Dec R ε α) (f : α → β) (g : Dec R ε' β) : Dec R ε' β := fun r =>
  match d r with
  | (.ok a, r') => (.ok (f a), r')
  | (.err _, r') => g r'
  | (.panic, r') => (.panic, r')
  | (.fuel, r') => (.fuel, r')

/-- Run `d` on `Cursor::new([b]).chain(reader)` (src/decode/types/*.rs and the other lines listed at `Chain`) and drop the chain afterwards; the underlying
reader stays where `d` left it. -/
def withChain (b : UInt8) (d : Dec (Chain R) ε α) : Dec R ε α := fun r =>
  match d { first := [b], inner := r } with
  | (res, c) => (res, c.inner)

/-- Run `d` on `reader.take(n)` (src/decode/module.rs:224, src/decode/sections/code.rs:53); also return the remaining `limit()`. -/
def withTake (n : Nat) (d : Dec (Take R) ε α) : Dec R ε (α × Nat) := fun r =>
  match d { limit := n, inner := r } with
  | (.ok a, t) => (.ok (a, t.limit), t.inner)
  | (.err e, t) => (.err e, t.inner)
  | (.panic, t) => (.panic, t.inner)
  | (.fuel, t) => (.fuel, t.inner)

/-- src/decode/helpers.rs:111, 160: ask the allocator for room for `n` elements (no observable effect besides the log). -/
def reserve [Read R] (n : Nat) : Dec R ε Unit := fun r => (.ok (), Read.reserve n r)

end Dec

/-! ### `Read::read_exact` and `Read::read_to_end` -/

/-- The loop of std's `default_read_exact` (io/mod.rs): read until `n` more bytes have arrived;
`Ok(0)` becomes `UnexpectedEof`, `Interrupted` is retried, other errors are returned.
The first argument is the step budget. -/
def readExactLoop {R : Type} [Read R] : Nat → Nat → List UInt8 → Dec R IoError (List UInt8)
  | 0, _, _ => Dec.outOfFuel
  | f + 1, n, acc => fun r =>
    if n = 0 then (.ok acc, r)
    else
      match Read.read n r with
      | (.ok [], r') => (.err .unexpectedEof, r')
      | (.ok (b :: bs), r') => readExactLoop f (n - (b :: bs).length) (acc ++ (b :: bs)) r'
      | (.error .interrupted, r') => readExactLoop f n acc r'
      | (.error e, r') => (.err e, r')

/-- `reader.read_exact(&mut buf)` (src/decode/helpers.rs:10, 76, 88, 161, src/decode/module.rs:364,
src/decode/instructions.rs:205, 752, 759) with `buf.len() = n`. -/
def readExact {R : Type} [Read R] (n : Nat) : Dec R IoError (List UInt8) := fun r =>
  readExactLoop (Read.weight r + 1) n [] r

/-- The loop of std's `default_read_to_end` (src/decode/sections/custom.rs:20): read until `Ok(0)`; `Interrupted` is retried.  The
buffer is never empty; its size is `Read.room r + 1`.  (std's `try_reserve` of the vector, which fails
with `OutOfMemory`, is not modelled.) -/
def readToEndLoop {R : Type} [Read R] : Nat → List UInt8 → Dec R IoError (List UInt8)
  | 0, _ => Dec.outOfFuel
  | f + 1, acc => fun r =>
    match Read.read (Read.room r + 1) r with
    | (.ok [], r') => (.ok acc, r')
    | (.ok (b :: bs), r') => readToEndLoop f (acc ++ (b :: bs)) r'
    | (.error .interrupted, r') => readToEndLoop f acc r'
    | (.error e, r') => (.err e, r')

/-- `reader.read_to_end(&mut contents)` (src/decode/sections/custom.rs:20) into an empty vector. -/
def readToEnd {R : Type} [Read R] : Dec R IoError (List UInt8) := fun r =>
  readToEndLoop (Read.weight r + 1) [] r

/-- src/decode/helpers.rs:8-12 `read_byte`. -/
def readByte {R : Type} [Read R] : Dec R IoError UInt8 := do
  let buf ← readExact 1
  match buf with
  | [b] => pure b
  | _ => Dec.panic          -- `buf[0]` of a one-byte array cannot fail

end Wadec
