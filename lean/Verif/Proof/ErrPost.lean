import Verif.Model.Io

/-! Which errors a decoder can return. -/

namespace Wadec

variable {R ε ε' α β : Type}

/-- Every error of `d` satisfies `Q`. -/
def ErrPost (d : Dec R ε α) (Q : ε → Prop) : Prop := ∀ r e r', d r = (.err e, r') → Q e

theorem ErrPost.pure {v : α} {Q : ε → Prop} : ErrPost (Pure.pure v : Dec R ε α) Q := by
  intro r e r' h; simp [Pure.pure, Dec.ok] at h

theorem ErrPost.err {e : ε} {Q : ε → Prop} (h : Q e) : ErrPost (Dec.err e : Dec R ε α) Q := by
  intro r e' r' he
  simp only [Dec.err, Prod.mk.injEq, Res.err.injEq] at he
  exact he.1 ▸ h

theorem ErrPost.bind {d : Dec R ε α} {f : α → Dec R ε β} {Q : ε → Prop} (hd : ErrPost d Q)
    (hf : ∀ v, ErrPost (f v) Q) : ErrPost (d >>= f) Q := by
  intro r e r' h
  simp only [Bind.bind, Dec.bind] at h
  rcases hdr : d r with ⟨res, r1⟩
  rw [hdr] at h
  cases res with
  | ok v => exact hf v r1 e r' h
  | err e1 =>
    simp only [Prod.mk.injEq, Res.err.injEq] at h
    exact h.1 ▸ hd r e1 r1 hdr
  | panic => simp at h
  | fuel => simp at h

theorem ErrPost.mapErr {d : Dec R ε α} {f : ε → ε'} {Q : ε' → Prop} (h : ∀ e, Q (f e)) :
    ErrPost (d.mapErr f) Q := by
  intro r e r' he
  simp only [Dec.mapErr] at he
  rcases hdr : d r with ⟨res, r1⟩
  rw [hdr] at he
  cases res with
  | err e1 =>
    simp only [Prod.mk.injEq, Res.err.injEq] at he
    exact he.1 ▸ h e1
  | ok v => simp at he
  | panic => simp at he
  | fuel => simp at he

theorem ErrPost.withTake {n : Nat} {d : Dec (Take R) ε α} {Q : ε → Prop} (h : ErrPost d Q) :
    ErrPost (Dec.withTake n d) Q := by
  intro r e r' he
  simp only [Dec.withTake] at he
  rcases hd : d { limit := n, inner := r } with ⟨res, t⟩
  rw [hd] at he
  cases res with
  | err e1 =>
    simp only [Prod.mk.injEq, Res.err.injEq] at he
    exact he.1 ▸ h _ _ _ hd
  | ok v => simp at he
  | panic => simp at he
  | fuel => simp at he

theorem ErrPost.ite {c : Prop} [Decidable c] {a b : Dec R ε α} {Q : ε → Prop} (h1 : c → ErrPost a Q)
    (h2 : ¬c → ErrPost b Q) : ErrPost (if c then a else b) Q := by
  split
  · exact h1 ‹_›
  · exact h2 ‹_›

end Wadec
