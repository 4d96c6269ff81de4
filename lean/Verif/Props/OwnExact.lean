import Verif.Proof.OwnExact
import Verif.Props.Robust
import Verif.Props.Fault

/-! C81: readers with a `read_exact` of their own.

The other properties take `read_exact` to be the default method, a loop over `read`.  A reader may bring
its own; as long as that keeps std's contract (`Fills`), the result of `decode_module` is the same. -/

namespace Wadec

open LawfulRead Spec

section
variable {R S : Type} [LawfulRead R] [LawfulRead S]

/-- C81: the model of `decode_module` on a reader with its own `read_exact` is the other one if that is
the default. -/
theorem c81_default : decodeModuleBy (R := R) readExact = decodeModule := by_default

/-- C81: the result is that of the default `read_exact`, on any reader with the same content. -/
theorem c81_verdict {exact : Nat → Dec R IoError (List UInt8)} (hx : Fills exact) (r : R) (s : S)
    (ha : avail s = avail r) (hf : fin s = fin r) :
    (decodeModuleBy exact r).1 = (decodeModule s).1 := by
  rw [module_twin hx (default_fills (R := R)) (r := r) (s := r) rfl rfl rfl, by_default]
  exact (c31_fragmentation r s ha hf).symm

/-- C81: so a module is returned exactly if the reader delivers one and its end, and an error exactly if
that is the first defect of the content. -/
theorem c81_content {exact : Nat → Dec R IoError (List UInt8)} (hx : Fills exact) (r : R) :
    (∀ m, (decodeModuleBy exact r).1 = .ok m ↔ BModule (avail r) m ∧ (fin r).toErr = .unexpectedEof) ∧
    (∀ e, (decodeModuleBy exact r).1 = .err e ↔ FModule (fin r) (avail r) e) := by
  have h := c81_verdict hx r r rfl rfl
  refine ⟨fun m => ?_, fun e => ?_⟩
  · rw [h]
    constructor
    · intro h1
      exact module_sound (r := r) (r' := (decodeModule r).2) (by rw [← h1])
    · rintro ⟨h1, h2⟩
      obtain ⟨r', h3⟩ := module_complete h1 h2
      rw [h3]
  · rw [h, ← c55_module r e]
    constructor
    · intro h1
      exact ⟨(decodeModule r).2, by rw [← h1]⟩
    · rintro ⟨r', h1⟩
      rw [h1]

/-- C81: the default keeps the contract, -/
theorem c81_fills : Fills (R := R) readExact := default_fills

end

/-! ### Slices -/

/-- `&[u8]` as a reader. -/
structure Slice where
  bytes : List UInt8

/-- std, `impl Read for &[u8]`: `read` copies as much as fits. -/
instance : Read Slice where
  read n s := (.ok (s.bytes.take n), ⟨s.bytes.drop n⟩)
  weight s := s.bytes.length
  reserve _ s := s
  room _ := 31

instance : LawfulRead Slice where
  avail s := s.bytes
  fin _ := .eof
  Adv bs s s' := s.bytes = bs ++ s'.bytes
  adv_nil _ := rfl
  adv_trans h1 h2 := by rw [h1, h2, List.append_assoc]
  adv_avail h := h
  adv_fin _ := rfl
  fin_ne _ := by simp
  avail_le _ := Nat.le_refl _
  adv_reserve _ _ := rfl
  read_data := by
    rintro n ⟨l⟩ b bs ⟨l'⟩ hn h
    simp only [Read.read, Prod.mk.injEq, Except.ok.injEq, Slice.mk.injEq] at h
    obtain ⟨h1, rfl⟩ := h
    refine ⟨by rw [← h1, List.length_take]; omega, by rw [← h1]; exact (List.take_append_drop n l).symm, ?_⟩
    have := congrArg List.length h1
    simp only [List.length_take, List.length_cons, Read.weight, List.length_drop] at this ⊢
    omega
  read_eof := by
    rintro n ⟨l⟩ r' hn h
    simp only [Read.read, Prod.mk.injEq, Except.ok.injEq] at h
    refine ⟨?_, rfl⟩
    have := congrArg List.length h.1
    simp only [List.length_take, List.length_nil] at this
    show l = []
    exact List.length_eq_zero_iff.1 (by omega)
  read_int := by
    rintro n r r' hn h
    cases h
  read_err := by
    rintro n r e r' hn _ h
    cases h

/-- std, `<&[u8] as Read>::read_exact`: if there are not enough bytes, the slice is emptied (`true`, recent
versions of std) or left as it is (`false`, earlier ones). -/
def sliceExact (empties : Bool) (n : Nat) : Dec Slice IoError (List UInt8) := fun s =>
  if s.bytes.length < n then (.err .unexpectedEof, if empties then ⟨[]⟩ else s)
  else (.ok (s.bytes.take n), ⟨s.bytes.drop n⟩)

/-- so do those of slices. -/
theorem c81_slice (empties : Bool) : Fills (sliceExact empties) where
  ok := by
    rintro n ⟨l⟩ bs rest _ ha hl
    have ha : l = bs ++ rest := ha
    subst ha hl
    refine ⟨⟨rest⟩, ?_, rfl, rfl⟩
    simp only [sliceExact]
    rw [if_neg (by rw [List.length_append]; omega), List.take_left, List.drop_left]
  err := by
    rintro n ⟨l⟩ h
    have h : l.length < n := h
    exact ⟨_, by simp only [sliceExact, if_pos h]; rfl⟩

/-- C81: decoding a slice: accepted are exactly the well-formed modules, rejections give the first
defect. -/
theorem c81_bytes (empties : Bool) (bs : Bytes) :
    (∀ m, (decodeModuleBy (sliceExact empties) ⟨bs⟩).1 = .ok m ↔ BModule bs m) ∧
    (∀ e, (decodeModuleBy (sliceExact empties) ⟨bs⟩).1 = .err e ↔ FModule .eof bs e) := by
  have h := c81_content (c81_slice empties) ⟨bs⟩
  exact ⟨fun m => (h.1 m).trans ⟨fun h => h.1, fun h => ⟨h, rfl⟩⟩, h.2⟩

/-- The sample module, as a slice. -/
example (empties : Bool) : (decodeModuleBy (sliceExact empties) ⟨preamble ++ bytesA⟩).1 = .ok (assemble secsA) :=
  ((c81_bytes empties _).1 _).2 (by
    have := c17_sound modA.choose_spec
    rwa [avail_ofBytes] at this)

/-- Where the two slices stand after the same error differs: three bytes are not enough for a preamble. -/
example : decodeModuleBy (sliceExact true) ⟨[0, 0x61, 0x73]⟩ = (.err (.ParsePreamble (.Io .unexpectedEof)), ⟨[]⟩) ∧
    decodeModuleBy (sliceExact false) ⟨[0, 0x61, 0x73]⟩ =
      (.err (.ParsePreamble (.Io .unexpectedEof)), ⟨[0, 0x61, 0x73]⟩) := ⟨rfl, rfl⟩

/-- A `read_exact` that hands out what there is does not keep the contract, and truncated section headers
are no longer noticed as such. -/
def laxExact (n : Nat) : Dec Slice IoError (List UInt8) := fun s =>
  (.ok ((s.bytes ++ List.replicate n 0).take n), ⟨s.bytes.drop n⟩)

example : ¬ Fills laxExact := by
  intro h
  obtain ⟨r', h⟩ := h.err (n := 1) (r := ⟨[]⟩) (by decide)
  cases h

example : (decodeModuleBy laxExact ⟨preamble ++ [0x01]⟩).1 ≠ (decodeModule (⟨preamble ++ [0x01]⟩ : Slice)).1 := by
  have h1 : (decodeModule (⟨preamble ++ [0x01]⟩ : Slice)).1 =
    .err (.DecodeSectionHeader (.DecodeSectionSize (.Io .unexpectedEof))) := rfl
  rw [h1]
  intro h
  cases h

end Wadec
