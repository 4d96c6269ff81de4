import Verif.Proof.OwnBuf
import Verif.Props.StdReaders

/-! C87: readers with a `read_buf` of their own.

The other properties take reading to the end, which `decode_module` does for the contents of custom sections, to be a loop over `read`.
std's loop calls the reader's `read_buf` as well; as long as that keeps std's contract (`Buffers`), and `read_exact` its own (`Fills`),
the result of `decode_module` is the same, whichever of the two methods is called when. -/

namespace Wadec

open LawfulRead Spec

section
variable {R S : Type} [LawfulRead R] [LawfulRead S] {own : Nat → R → Except IoError (List UInt8) × R}
  {exact : Nat → Dec R IoError (List UInt8)}

/-- C87: the model with both methods is that with `read_exact` only if `read_buf` is the default, which calls `read`. -/
theorem c87_default (pick : R → Bool) : decodeModuleOwn (R := R) Read.read pick exact = decodeModuleBy exact := ownBy_default pick exact

/-- C87: the result is that of the default methods, on any reader with the same content. -/
theorem c87_verdict (hb : Buffers own) (pick : R → Bool) (hx : Fills exact) (r : R) (s : S) (ha : avail s = avail r)
    (hf : fin s = fin r) : (decodeModuleOwn own pick exact r).1 = (decodeModule s).1 := by
  rw [moduleOwn_twin hb pick hx (default_fills (R := R)) (r := r) (s := r) rfl rfl rfl, by_default]
  exact (c31_fragmentation r s ha hf).symm

/-- C87: so a module is returned exactly if the reader delivers one and its end, and an error exactly if that is the first defect of the
content. -/
theorem c87_content (hb : Buffers own) (pick : R → Bool) (hx : Fills exact) (r : R) :
    (∀ m, (decodeModuleOwn own pick exact r).1 = .ok m ↔ BModule (avail r) m ∧ (fin r).toErr = .unexpectedEof) ∧
    (∀ e, (decodeModuleOwn own pick exact r).1 = .err e ↔ FModule (fin r) (avail r) e) := by
  have h := c81_content (default_fills (R := R)) r
  rw [by_default] at h
  rw [c87_verdict hb pick hx r r rfl rfl]
  exact h

/-- C87: the default `read_buf` keeps the contract, -/
theorem c87_read : Buffers (R := R) Read.read := default_buffers

/-- C87: and so do those of `Take` and `BufReader` if the inner reader's does. -/
theorem c87_closed (hb : Buffers own) : Buffers (Take.readBuf own) ∧ Buffers (BufReader.readBuf own) := ⟨hb.take, hb.bufReader⟩

/-- C87: so the result through a buffer of whatever size, with the methods `BufReader` has, is that without. -/
theorem c87_buffered (hb : Buffers own) (cap : Nat) (pick : BufReader R → Bool) (r : R) :
    (decodeModuleOwn (BufReader.readBuf own) pick BufReader.exact (BufReader.new cap r)).1 = (decodeModule r).1 :=
  c87_verdict hb.bufReader pick BufReader.fills (BufReader.new cap r) r rfl rfl

end

/-- C87: of a cursor, with the methods cursors have, what is behind its position is decoded. -/
theorem c87_cursor (pick : ByteCursor → Bool) (toEnd : Bool) (bs : Bytes) (pos : Nat) :
    (∀ m, (decodeModuleOwn ByteCursor.readBuf pick (ByteCursor.exact toEnd) ⟨bs, pos⟩).1 = .ok m ↔ BModule (bs.drop pos) m) ∧
    (∀ e, (decodeModuleOwn ByteCursor.readBuf pick (ByteCursor.exact toEnd) ⟨bs, pos⟩).1 = .err e ↔ FModule .eof (bs.drop pos) e) := by
  have h : decodeModuleOwn ByteCursor.readBuf pick (ByteCursor.exact toEnd) = decodeModuleBy (ByteCursor.exact toEnd) :=
    c87_default pick
  rw [h]
  exact c82_cursor toEnd bs pos

/-- C87: of a ring buffer, with the methods it has, its content, wherever it wraps around. -/
theorem c87_deque (pick : VecDeque → Bool) (s : VecDeque) :
    (∀ m, (decodeModuleOwn VecDeque.readBuf pick VecDeque.exact s).1 = .ok m ↔ BModule (s.front ++ s.back) m) ∧
    (∀ e, (decodeModuleOwn VecDeque.readBuf pick VecDeque.exact s).1 = .err e ↔ FModule .eof (s.front ++ s.back) e) := by
  have h : decodeModuleOwn VecDeque.readBuf pick VecDeque.exact = decodeModuleBy VecDeque.exact := c87_default pick
  rw [h]
  exact c82_deque s

/-! ### Instances -/

/-- A `read_buf` of slices that is not `read`: it hands out one byte at a time. -/
def slowBuf (n : Nat) (s : Slice) : Except IoError (List UInt8) × Slice :=
  if n = 0 then (.ok [], s) else (.ok (s.bytes.take 1), ⟨s.bytes.drop 1⟩)

theorem slowBuf_buffers : Buffers slowBuf where
  data := by
    rintro n ⟨l⟩ b bs s' hn h
    simp only [slowBuf, if_neg (Nat.ne_of_gt hn)] at h
    cases l with
    | nil => cases h
    | cons c l =>
      cases h
      exact ⟨hn, rfl, Nat.lt_succ_self _⟩
  eof := by
    rintro n ⟨l⟩ s' hn h
    simp only [slowBuf, if_neg (Nat.ne_of_gt hn)] at h
    cases l with
    | nil => exact ⟨rfl, rfl⟩
    | cons c l => cases h
  int := by
    rintro n s s' hn h
    simp only [slowBuf, if_neg (Nat.ne_of_gt hn)] at h
    cases h
  err := by
    rintro n s e s' hn _ h
    simp only [slowBuf, if_neg (Nat.ne_of_gt hn)] at h
    cases h

/-- Bytes of a module with a custom section `a` of five bytes -/
def customAbytes : Bytes := preamble ++ [0, 7, 1, 0x61, 1, 2, 3, 4, 5]

/-- The contents of its custom sections -/
def contentsIn : Res DecodeModuleError Module → List (List UInt8)
  | .ok m => m.custom_sections.map (·.contents)
  | _ => []

/-- It is used: `read` in states with an odd number of bytes left, `read_buf` otherwise, the bytes arrive in pieces; -/
example : readToEndBy slowBuf (fun s => s.bytes.length % 2 == 1) ⟨4, ⟨[1, 2, 3, 4, 5, 6]⟩⟩ = (.ok [1, 2, 3, 4], ⟨0, ⟨[5, 6]⟩⟩) := rfl

example : contentsIn (decodeModuleOwn slowBuf (fun _ => false) (sliceExact true) ⟨customAbytes⟩).1 = [[1, 2, 3, 4, 5]] := by
  decide +kernel

/-- and the result is that of `read` alone. -/
example (pick : Slice → Bool) : (decodeModuleOwn slowBuf pick (sliceExact true) ⟨customAbytes⟩).1 = (decodeModule (Src.ofBytes customAbytes)).1 :=
  c87_verdict slowBuf_buffers pick (c81_slice true) ⟨customAbytes⟩ (Src.ofBytes customAbytes) (avail_ofBytes _) rfl

/-- A `read_buf` that drops a byte does not keep the contract, and custom sections lose content. -/
def lossyBuf (n : Nat) (s : Slice) : Except IoError (List UInt8) × Slice :=
  if n = 0 then (.ok [], s) else (.ok (s.bytes.take 1), ⟨s.bytes.drop 2⟩)

example : ¬ Buffers lossyBuf := fun h => by
  have h2 := (h.data (n := 1) (r := ⟨[1, 2]⟩) (b := 1) (bs := []) (r' := ⟨[]⟩) (by omega) rfl).2.1
  cases h2

example : (decodeModuleOwn lossyBuf (fun _ => false) (sliceExact true) ⟨customAbytes⟩).1 ≠ (decodeModule (Src.ofBytes customAbytes)).1 := by
  have h : contentsIn (decodeModuleOwn lossyBuf (fun _ => false) (sliceExact true) ⟨customAbytes⟩).1 ≠
      contentsIn (decodeModule (Src.ofBytes customAbytes)).1 := by decide +kernel
  exact fun e => h (congrArg contentsIn e)

end Wadec
