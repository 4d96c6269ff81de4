import Verif.Proof.StdKeeps
import Verif.Props.OwnExact
import Verif.Props.Cli

/-! C82: buffered input, cursors and other readers of std.

`BufReader`, `Cursor<T>` and `VecDeque<u8>` bring their own `read_exact`.  They are lawful readers
(`LawfulRead`, Proof/StdReaders), so the properties stated for all of these hold for them; here is what they mean for
`decode_module`, called with the `read_exact` these readers have. -/

namespace Wadec

open LawfulRead Spec

section
variable {R : Type} [LawfulRead R]

/-- C82: wrapping a reader in a `BufReader`, with a buffer of whatever size, does not change the result. -/
theorem c82_buffered (cap : Nat) (r : R) :
    (decodeModuleBy BufReader.exact (BufReader.new cap r)).1 = (decodeModule r).1 :=
  c81_verdict BufReader.fills (BufReader.new cap r) r rfl rfl

/-- C82: if some of the input is in the buffer already, that comes first: a module is accepted exactly if these bytes and those the
inner reader delivers are one, and an error is that of the first defect in them. -/
theorem c82_started (s : BufReader R) :
    (∀ m, (decodeModuleBy BufReader.exact s).1 = .ok m ↔
      BModule (s.buf ++ avail s.inner) m ∧ (fin s.inner).toErr = .unexpectedEof) ∧
    (∀ e, (decodeModuleBy BufReader.exact s).1 = .err e ↔ FModule (fin s.inner) (s.buf ++ avail s.inner) e) :=
  c81_content BufReader.fills s

theorem noFuelBy {exact : Nat → Dec R IoError (List UInt8)} (hx : Fills exact) (r : R) : (decodeModuleBy exact r).1 ≠ .fuel := by
  rw [c81_verdict hx r r rfl rfl]
  rcases c29_total r with ⟨m, r', h⟩ | ⟨e, r', h⟩ <;> rw [h] <;> simp

/-- C82: whatever the outcome, no more than a buffer of bytes has been read and not been used. -/
theorem c82_ahead (s : BufReader R) (hs : s.buf.length ≤ s.cap) :
    (decodeModuleBy BufReader.exact s).2.buf.length ≤ s.cap :=
  (BufReader.module_holds s.cap s _ _ rfl (noFuelBy BufReader.fills s) ⟨rfl, hs⟩).2

/-- C82: whatever the outcome, no byte is lost: what has not been used is in the buffer or still to be read. -/
theorem c82_kept (s : BufReader Src) :
    ∃ used, s.buf ++ Src.stream s.inner.evs =
      used ++ ((decodeModuleBy BufReader.exact s).2.buf ++ Src.stream (decodeModuleBy BufReader.exact s).2.inner.evs) :=
  BufReader.module_kept _ s _ _ rfl (noFuelBy BufReader.fills s) ⟨[], rfl⟩

/-- C82: the command-line tool, which reads files and standard input through a `BufReader`, does what it does without. -/
theorem c82_cli (cap : Nat) (t : CliText) (v : Bool) (input : Except IoError R) :
    cliMainBy BufReader.exact t v (input.map (BufReader.new cap)) = cliMain t v input := by
  cases input with
  | error e => rfl
  | ok r =>
    simp only [Except.map, cliMainBy, cliMain, c82_buffered]
    generalize (decodeModule r).1 = res
    cases res <;> rfl

end

theorem ByteCursor.left_eq (s : ByteCursor) : s.left = s.bytes.drop s.pos := by
  simp only [ByteCursor.left]
  rcases Nat.le_total s.pos s.bytes.length with h | h
  · rw [Nat.min_eq_left h]
  · rw [Nat.min_eq_right h, List.drop_length, List.drop_eq_nil_of_le h]

/-- C82: of a cursor, what is behind its position is decoded. -/
theorem c82_cursor (toEnd : Bool) (bs : Bytes) (pos : Nat) :
    (∀ m, (decodeModuleBy (ByteCursor.exact toEnd) ⟨bs, pos⟩).1 = .ok m ↔ BModule (bs.drop pos) m) ∧
    (∀ e, (decodeModuleBy (ByteCursor.exact toEnd) ⟨bs, pos⟩).1 = .err e ↔ FModule .eof (bs.drop pos) e) := by
  have h := c81_content (ByteCursor.fills toEnd) ⟨bs, pos⟩
  rw [← ByteCursor.left_eq ⟨bs, pos⟩]
  exact ⟨fun m => (h.1 m).trans ⟨fun h => h.1, fun h => ⟨h, rfl⟩⟩, h.2⟩

/-- C82: of a ring buffer, its content, wherever it wraps around. -/
theorem c82_deque (s : VecDeque) :
    (∀ m, (decodeModuleBy VecDeque.exact s).1 = .ok m ↔ BModule (s.front ++ s.back) m) ∧
    (∀ e, (decodeModuleBy VecDeque.exact s).1 = .err e ↔ FModule .eof (s.front ++ s.back) e) := by
  have h := c81_content VecDeque.fills s
  exact ⟨fun m => (h.1 m).trans ⟨fun h => h.1, fun h => ⟨h, rfl⟩⟩, h.2⟩

/-! ### Instances -/

/-- The sample module through a buffer of any size, and through two. -/
example (cap cap' : Nat) :
    (decodeModuleBy BufReader.exact (BufReader.new cap (BufReader.new cap' (Src.ofBytes (preamble ++ bytesA))))).1 =
      .ok (assemble secsA) := by
  rw [c82_buffered, c31_fragmentation (Src.ofBytes (preamble ++ bytesA)) (BufReader.new cap' (Src.ofBytes (preamble ++ bytesA))) rfl rfl]
  exact congrArg Prod.fst modA.choose_spec

/-- A buffer of six bytes in front of a script with an interruption and a bad preamble: eight bytes are used, one is in the buffer, and
three have not been read. -/
example : decodeModuleBy BufReader.exact (BufReader.new 6 (⟨[.data [0, 0x61, 0x73], .fail .interrupted,
    .data [0x6D, 2, 0, 0, 0, 7, 8, 9, 10]], []⟩ : Src)) =
    (.err (.ParsePreamble (.Unexpected [0, 0x61, 0x73, 0x6D, 2, 0, 0, 0])), ⟨6, [7], ⟨[.data [8, 9, 10]], []⟩⟩) := rfl

/-- A ring buffer that wraps around in the middle of the preamble. -/
example : (decodeModuleBy VecDeque.exact ⟨[0, 0x61, 0x73], [0x6D, 1, 0, 0, 0] ++ bytesA, fun h => by cases h⟩).1 =
    .ok (assemble secsA) :=
  ((c82_deque _).1 _).2 (by
    have := c17_sound modA.choose_spec
    rwa [avail_ofBytes] at this)

/-- A cursor behind a header of three bytes. -/
example (toEnd : Bool) : (decodeModuleBy (ByteCursor.exact toEnd) ⟨[1, 2, 3] ++ (preamble ++ bytesA), 3⟩).1 = .ok (assemble secsA) :=
  ((c82_cursor toEnd _ 3).1 _).2 (by
    have := c17_sound modA.choose_spec
    rwa [avail_ofBytes] at this)

/-- A cursor behind the end of its bytes is at the end of the input. -/
example : (decodeModuleBy (ByteCursor.exact true) ⟨[0, 0x61], 100⟩).1 = .err (.ParsePreamble (.Io .unexpectedEof)) := rfl

end Wadec
