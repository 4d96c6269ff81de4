import Verif.Props.Resources
import Verif.Proof.OwesAll

/-! C65: how much room is reserved in total. -/

namespace Wadec

open LawfulRead Spec

/-- C65: an accepted module: in total, room is reserved for at most as many elements as bytes were taken from the
reader. -/
theorem c65_accepted {s s' : Src} {m : Module} (h : decodeModule s = (.ok m, s')) :
    ∃ new, s'.log = s.log ++ new ∧ new.sum + Src.volume s'.evs ≤ Src.volume s.evs := by
  obtain ⟨new, h1, _, h3⟩ := module_ow s _ s' h
  exact ⟨new, h1, by have := h3 m rfl; simp only [Audit.pot] at this; omega⟩

/-- C65: whatever the outcome: room is reserved for at most as many elements as bytes were taken from the reader, plus
what three lists can announce. -/
theorem c65_any {s s' : Src} {res : Res DecodeModuleError Module} (h : decodeModule s = (res, s')) :
    ∃ new, s'.log = s.log ++ new ∧ new.sum + Src.volume s'.evs ≤ Src.volume s.evs + 3 * (2 ^ 32 - 1) := by
  obtain ⟨new, h1, h2, _⟩ := module_ow s _ s' h
  exact ⟨new, h1, by simp only [Audit.pot] at h2; omega⟩

/-- C65: the same for byte strings. -/
theorem c65_bytes (bs : Bytes) :
    (decodeModule (Src.ofBytes bs)).2.log.sum ≤ bs.length + 3 * (2 ^ 32 - 1) ∧
    (∀ m, BModule bs m → (decodeModule (Src.ofBytes bs)).2.log.sum ≤ bs.length) := by
  constructor
  · generalize hd : decodeModule (Src.ofBytes bs) = o
    obtain ⟨res, s'⟩ := o
    obtain ⟨new, h1, h3⟩ := c65_any hd
    have h0 : (Src.ofBytes bs).log = [] := rfl
    rw [h0, List.nil_append] at h1
    simp only [Src.ofBytes, Src.volume] at h3
    simp only [h1]
    omega
  · intro m hm
    obtain ⟨s', hd⟩ := (c18_bytes _ _).2 hm
    rw [hd]
    obtain ⟨new, h1, h3⟩ := c65_accepted hd
    have h0 : (Src.ofBytes bs).log = [] := rfl
    rw [h0, List.nil_append] at h1
    simp only [Src.ofBytes, Src.volume] at h3
    simp only [h1]
    omega

/-- A type section of 17 bytes: `n` recursive types, the first of `n` subtypes, the first of which is a function with
`n` parameters; the parameters are missing. -/
def threefold (n : Nat) : Bytes :=
  preamble ++ ([0x01, 0x11] ++ uEnc 5 n ++ [0x4E] ++ uEnc 5 n ++ [0x60] ++ uEnc 5 n)

/-- C65: three is reached: these 27 bytes reserve room for 3 · (2^32 - 1) elements. -/
theorem c65_tight : (threefold (2 ^ 32 - 1)).length = 27 ∧
    (decodeModule (Src.ofBytes (threefold (2 ^ 32 - 1)))).2.log = [2 ^ 32 - 1, 2 ^ 32 - 1, 2 ^ 32 - 1] := by
  decide +kernel

/-- The sample module: 71 bytes, room for 10 elements. -/
example : (decodeModule (Src.ofBytes (preamble ++ bytesA))).2.log = [1, 1, 0, 0, 1, 1, 1, 1, 1, 1, 1, 1] ∧
    (preamble ++ bytesA).length = 71 ∧
    (decodeModule (Src.ofBytes (preamble ++ bytesA))).2.log.sum ≤ (preamble ++ bytesA).length :=
  ⟨by decide +kernel, by decide, (c65_bytes _).2 _ bModA⟩

/-- A reader that fails after four bytes of a section. -/
example : ∃ res s', decodeModule (⟨[.data (preamble ++ [0x01, 0x11, 0x02, 0x4E]), .fail (.other 1)], []⟩ : Src) =
      (res, s') ∧ s'.log.sum ≤ 12 + 3 * (2 ^ 32 - 1) := by
  generalize hd : decodeModule (⟨[.data (preamble ++ [0x01, 0x11, 0x02, 0x4E]), .fail (.other 1)], []⟩ : Src) = o
  obtain ⟨res, s'⟩ := o
  obtain ⟨new, h1, h2⟩ := c65_any hd
  refine ⟨res, s', rfl, ?_⟩
  simp only [List.nil_append] at h1
  rw [h1]
  simp [Src.volume, preamble] at h2
  omega

end Wadec
