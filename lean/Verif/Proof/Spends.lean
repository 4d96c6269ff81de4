import Verif.Model.Steps
import Verif.Spec.Steps

/-! C69: no byte is taken from the reader for nothing. -/

namespace Wadec.Counted

variable {R : Type} {ε ε' α β σ : Type}

/-- `d` takes no more bytes than steps. -/
def Spends [Drains R] (d : Dec R ε α) : Prop := ∀ r, Drains.stock r ≤ Drains.stock (d r).1.2 + (d r).2

namespace Spends
variable [Drains R]

theorem step {d : Dec R ε α} (h : Spends d) : Spends (Dec.step d) := by
  intro r
  have := h r
  simp only [Dec.step, Dec.more]
  omega
theorem pure {a : α} : Spends (Pure.pure a : Dec R ε α) := fun _ => Nat.le_refl _
theorem err {e : ε} : Spends (Dec.err e : Dec R ε α) := fun _ => Nat.le_refl _
theorem panic : Spends (Dec.panic : Dec R ε α) := fun _ => Nat.le_refl _
theorem fuel : Spends (Dec.outOfFuel : Dec R ε α) := fun _ => Nat.le_refl _
theorem reserve {n : Nat} : Spends (Dec.reserve n : Dec R ε Unit) := fun r => by
  simp only [Dec.reserve, Drains.reserve_stock]; omega
theorem charge {n : Nat} : Spends (Dec.charge n : Dec R ε Unit) := fun r => Nat.le_add_right _ _

theorem bind {d : Dec R ε α} {f : α → Dec R ε β} (h : Spends d) (hf : ∀ a, Spends (f a)) : Spends (d >>= f) := by
  intro r
  have h := h r
  simp only [Bind.bind, Dec.bind]
  generalize d r = x at h ⊢
  rcases x with ⟨⟨res, r'⟩, n⟩
  cases res with
  | ok a => have := hf a r'; simp only [Dec.more] at *; omega
  | _ => exact h

theorem mapErr {d : Dec R ε α} {f : ε → ε'} (h : Spends d) : Spends (Dec.mapErr f d) := by
  intro r
  have h := h r
  simp only [Dec.mapErr]
  generalize d r = x at h ⊢
  rcases x with ⟨⟨res, r'⟩, n⟩
  cases res <;> exact h

theorem orElse {d : Dec R ε α} {f : α → β} {g : Dec R ε' β} (h : Spends d) (hg : Spends g) : Spends (Dec.orElseDiscard d f g) := by
  intro r
  have h := h r
  simp only [Dec.orElseDiscard]
  generalize d r = x at h ⊢
  rcases x with ⟨⟨res, r'⟩, n⟩
  cases res with
  | err e => have := hg r'; simp only [Dec.more] at *; omega
  | _ => exact h

theorem chain {b : UInt8} {d : Dec (Chain R) ε α} (h : Spends d) : Spends (Dec.withChain b d) := by
  intro r
  have h := h ⟨[b], r⟩
  simp only [Dec.withChain]
  generalize d ⟨[b], r⟩ = x at h ⊢
  rcases x with ⟨⟨res, r'⟩, n⟩
  exact h

theorem take {k : Nat} {d : Dec (Take R) ε α} (h : Spends d) : Spends (Dec.withTake k d) := by
  intro r
  have h := h ⟨k, r⟩
  simp only [Dec.withTake]
  generalize d ⟨k, r⟩ = x at h ⊢
  rcases x with ⟨⟨res, r'⟩, n⟩
  cases res <;> exact h

theorem ite {p : Prop} [Decidable p] {a b : Dec R ε α} (ha : p → Spends a) (hb : ¬ p → Spends b) : Spends (if p then a else b) := by
  split <;> rename_i h
  · exact ha h
  · exact hb h

end Spends

variable [Drains R]

theorem sp_readExactLoop : ∀ f n acc, Spends (R := R) (readExactLoop f n acc)
  | 0, _, _ => Spends.step Spends.fuel
  | f + 1, n, acc => by
    refine Spends.step fun r => ?_
    by_cases hn : n = 0
    · subst hn; exact Nat.le_refl _
    · simp only [if_neg hn]
      cases hr : Read.read n r with
      | mk res r' =>
        rcases res with e | bs
        · have h1 := Drains.read_err hr
          cases e <;> first | exact h1 | (have := sp_readExactLoop f n acc r'; simp only; omega)
        · have h1 := Drains.read_ok hr
          cases bs with
          | nil => exact h1
          | cons b bs =>
            have := sp_readExactLoop f (n - (b :: bs).length) (acc ++ (b :: bs)) r'
            simp only [Dec.more]
            omega

theorem sp_readExact (n : Nat) : Spends (R := R) (readExact n) := Spends.step fun r => sp_readExactLoop _ _ _ r

theorem sp_readToEndLoop : ∀ f acc, Spends (R := R) (readToEndLoop f acc)
  | 0, _ => Spends.step Spends.fuel
  | f + 1, acc => by
    refine Spends.step fun r => ?_
    cases hr : Read.read (Read.room r + 1) r with
    | mk res r' =>
      rcases res with e | bs
      · have h1 := Drains.read_err hr
        cases e <;> first | exact h1 | (have := sp_readToEndLoop f acc r'; simp only; omega)
      · have h1 := Drains.read_ok hr
        cases bs with
        | nil => exact h1
        | cons b bs =>
          have := sp_readToEndLoop f (acc ++ (b :: bs)) r'
          simp only [Dec.more]
          omega

theorem sp_readToEnd : Spends (R := R) readToEnd := Spends.step fun r => sp_readToEndLoop _ _ r

theorem sp_readByte : Spends (R := R) readByte := by
  refine Spends.step (Spends.bind (sp_readExact 1) fun buf => ?_)
  split
  · exact Spends.pure
  · exact Spends.panic

/-- The functions already dealt with. -/
class Spd (d : Dec R ε α) : Prop where
  spends : Spends d
instance {n : Nat} : Spd (R := R) (readExact n) := ⟨sp_readExact n⟩
instance : Spd (R := R) readToEnd := ⟨sp_readToEnd⟩
instance : Spd (R := R) readByte := ⟨sp_readByte⟩

/-- One structural step. -/
syntax "spend1" : tactic
macro_rules | `(tactic| spend1) => `(tactic| with_reducible first
  | assumption
  | refine Spends.step ?_
  | exact Spends.charge
  | refine Spends.bind ?_ fun _ => ?_
  | refine Spends.mapErr ?_
  | refine Spends.ite (fun _ => ?_) (fun _ => ?_)
  | exact Spends.pure | exact Spends.err | exact Spends.panic | exact Spends.fuel | exact Spends.reserve
  | refine Spends.chain ?_
  | refine Spends.take ?_
  | refine Spends.orElse ?_ ?_
  | exact Spd.spends)

end Wadec.Counted
