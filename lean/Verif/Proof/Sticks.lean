import Verif.Proof.Module
import Verif.Proof.DepthOnly

/-! C66, C72: inputs on which a decoder runs out of stack. -/

namespace Wadec

open LawfulRead Spec

variable {R : Type} [LawfulRead R]

/-- On inputs that start with `bs`, `d` runs out of stack. -/
def Sticks {ε α : Type} (d : Dec R ε α) (bs : Bytes) : Prop := ∀ r rest, avail r = bs ++ rest → (d r).1 = .fuel

variable {ε ε' α β : Type}

theorem Sticks.bind {d : Dec R ε α} {f : α → Dec R ε β} {bs : Bytes} (h : Sticks d bs) : Sticks (d >>= f) bs := by
  intro r rest ha
  have := h r rest ha
  simp only [Bind.bind, Dec.bind]
  generalize d r = o at this ⊢
  obtain ⟨res, r1⟩ := o
  simp only at this
  subst this
  rfl

theorem Sticks.after {d : Dec R ε α} {f : α → Dec R ε β} {b1 b2 : Bytes} {v : α} (hd : Runs d b1 v)
    (h : Sticks (f v) b2) : Sticks (d >>= f) (b1 ++ b2) := by
  intro r rest ha
  obtain ⟨r1, e1, a1⟩ := hd r (b2 ++ rest) (by rw [ha, List.append_assoc])
  have := adv_avail a1
  rw [ha, List.append_assoc, List.append_cancel_left_eq] at this
  simp only [Bind.bind, Dec.bind, e1]
  exact h r1 rest this.symm

theorem Sticks.mapErr {d : Dec R ε α} {f : ε → ε'} {bs : Bytes} (h : Sticks d bs) : Sticks (d.mapErr f) bs := by
  intro r rest ha
  have := h r rest ha
  simp only [Dec.mapErr]
  generalize d r = o at this ⊢
  obtain ⟨res, r1⟩ := o
  simp only at this
  subst this
  rfl

theorem Sticks.withTake {d : Dec (Take R) ε α} {bs : Bytes} {n : Nat} (h : Sticks d bs) (hn : bs.length ≤ n) :
    Sticks (Dec.withTake n d) bs := by
  intro r rest ha
  have := h ⟨n, r⟩ (rest.take (n - bs.length)) (by
    simp [avail, ha, List.take_append, List.take_of_length_le hn])
  simp only [Dec.withTake]
  generalize d ⟨n, r⟩ = o at this ⊢
  obtain ⟨res, r1⟩ := o
  simp only at this
  subst this
  rfl

theorem Sticks.none {bs : Bytes} : Sticks (R := R) (ε := ε) (α := α) Dec.outOfFuel bs := fun _ _ _ => rfl

/-- After a step that may itself run out of stack. -/
theorem Sticks.under {d d' : Dec R ε α} {f : α → Dec R ε β} {b1 b2 : Bytes} {v : α} (hu : Under d d') (hd : Runs d b1 v)
    (h : Sticks (f v) b2) : Sticks (d' >>= f) (b1 ++ b2) := by
  intro r rest ha
  rcases hu r with h' | h'
  · have := Sticks.after hd h r rest ha
    simp only [Bind.bind, Dec.bind] at this ⊢
    rw [h']
    exact this
  · simp only [Bind.bind, Dec.bind]
    generalize d' r = o at h'
    obtain ⟨res, r1⟩ := o
    simp only at h'
    subst h'
    rfl

theorem Sticks.ite_pos {c : Prop} [Decidable c] {a b : Dec R ε α} {bs : Bytes} (hc : c) (h : Sticks a bs) :
    Sticks (if c then a else b) bs := by rwa [if_pos hc]

theorem Sticks.ite_neg {c : Prop} [Decidable c] {a b : Dec R ε α} {bs : Bytes} (hc : ¬c) (h : Sticks b bs) :
    Sticks (if c then a else b) bs := by rwa [if_neg hc]

end Wadec
