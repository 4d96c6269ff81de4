import Verif.Model.OwnExact
import Verif.Model.Cli

/-! Readers of std that `decode_module` is given (src/decode/module.rs:207, `input: impl Read`), with a `read_exact` of their own (C82).

`BufReader` is what the command-line tool passes (wadec-cli/src/main.rs:22-23: `InputArg::open` gives a `BufReader<File>` or
standard input, which is a `BufReader` as well).  Simplified: what `BufReader` does is described by the unread part of its
buffer and its capacity; positions inside the buffer are not modelled. -/

namespace Wadec

/-- std, `BufReader<R>` with a buffer of `cap` bytes, of which `buf` have been filled and not yet been read.  (Passed as
`input`, src/decode/module.rs:207.) -/
structure BufReader (R : Type) where
  cap : Nat
  buf : List UInt8
  inner : R

namespace BufReader

variable {R : Type} [Read R]

/-- std, `BufReader::new`/`with_capacity` -/
def new (cap : Nat) (r : R) : BufReader R := ⟨cap, [], r⟩

/-- std, `<BufReader<R> as Read>::read`: a read that is no smaller than the buffer goes to the inner reader if there is
nothing in the buffer; otherwise an empty buffer is filled by one `read` of the inner reader (`fill_buf`), and the request
served from the buffer. -/
def read (n : Nat) (s : BufReader R) : Except IoError (List UInt8) × BufReader R :=
  match s.buf with
  | [] =>
    if s.cap ≤ n then
      match Read.read n s.inner with
      | (res, r') => (res, { s with inner := r' })
    else
      match Read.read s.cap s.inner with
      | (.ok bs, r') => (.ok (bs.take n), { s with buf := bs.drop n, inner := r' })
      | (.error e, r') => (.error e, { s with inner := r' })
  | b :: bs => (.ok ((b :: bs).take n), { s with buf := (b :: bs).drop n })

instance : Read (BufReader R) where
  read := read
  weight s := s.buf.length + (s.cap + 1) * Read.weight s.inner
  reserve n s := { s with inner := Read.reserve n s.inner }
  room s := Read.room s.inner

/-- std, `<BufReader<R> as Read>::read_exact`: from the buffer if that has enough, otherwise as the default. -/
def exact (n : Nat) : Dec (BufReader R) IoError (List UInt8) := fun s =>
  if n ≤ s.buf.length then (.ok (s.buf.take n), { s with buf := s.buf.drop n })
  else readExact n s

end BufReader

/-- std, `VecDeque<u8>` as a reader: a ring buffer, whose content is in two slices; the second one is not used before the
first.  (Passed as `input`, src/decode/module.rs:207.) -/
structure VecDeque where
  front : List UInt8
  back : List UInt8
  tidy : front = [] → back = []

namespace VecDeque

/-- std, `drain(..n)` and the slices afterwards: the second one becomes the first when the first is used up -/
def drain (n : Nat) (s : VecDeque) : VecDeque :=
  if h : n < s.front.length then
    ⟨s.front.drop n, s.back, fun e => absurd (List.drop_eq_nil_iff.1 e) (by omega)⟩
  else ⟨s.back.drop (n - s.front.length), [], fun _ => rfl⟩

/-- std, `<VecDeque<u8> as Read>::read`: from the first slice only -/
instance : Read VecDeque where
  read n s := (.ok (s.front.take n), s.drain (s.front.take n).length)
  weight s := s.front.length + s.back.length
  reserve _ s := s
  room _ := 31

/-- std, `<VecDeque<u8> as Read>::read_exact`: both slices if needed; cleared if they do not suffice -/
def exact (n : Nat) : Dec VecDeque IoError (List UInt8) := fun s =>
  if n < s.front.length then (.ok (s.front.take n), s.drain n)
  else if n - s.front.length ≤ s.back.length then
    (.ok (s.front ++ s.back.take (n - s.front.length)), s.drain n)
  else (.err .unexpectedEof, ⟨[], [], fun _ => rfl⟩)

end VecDeque

/-- std, `Cursor<T>` with `T: AsRef<[u8]>`; the position may be behind the end.  (Passed as `input`,
src/decode/module.rs:207; this is a cursor over the whole input, not the one-byte cursor of Model/Io.) -/
structure ByteCursor where
  bytes : List UInt8
  pos : Nat

namespace ByteCursor

/-- std, `Cursor::split`: what is behind the position -/
def left (s : ByteCursor) : List UInt8 := s.bytes.drop (min s.pos s.bytes.length)

/-- std, `<Cursor<T> as Read>::read` -/
instance : Read ByteCursor where
  read n s := (.ok (s.left.take n), { s with pos := s.pos + (s.left.take n).length })
  weight s := s.left.length
  reserve _ s := s
  room _ := 31

/-- std, `<Cursor<T> as Read>::read_exact`; on failure the cursor is put at the end (`true`, recent versions of std) or stays
(`false`, earlier ones). -/
def exact (toEnd : Bool) (n : Nat) : Dec ByteCursor IoError (List UInt8) := fun s =>
  if s.left.length < n then (.err .unexpectedEof, if toEnd then { s with pos := s.bytes.length } else s)
  else (.ok (s.left.take n), { s with pos := s.pos + n })

end ByteCursor

/-- wadec-cli/src/main.rs:20-28 `main`, as `cliMain`, where the input is a reader with the `read_exact` given. -/
def cliMainBy {R : Type} [Read R] (exact : Nat → Dec R IoError (List UInt8)) (t : CliText) (verbose : Bool)
    (input : Except IoError R) : CliOutcome :=
  match input with
  | .error e => abort verbose (t.io e) (t.debugIo e)
  | .ok r =>
    match (decodeModuleBy exact r).1 with
    | .ok m => ⟨if verbose then t.debugModule m ++ "\n" else "", "", 0⟩
    | .err e => abort verbose (ErrText.chain t.io e) (t.debugErr e)
    | .panic => ⟨"", "panic", 101⟩
    | .fuel => ⟨"", "", 101⟩

end Wadec
