import Verif.Model.Steps

/-! The decoders that count steps decode the same: `Agrees c d`. -/

namespace Wadec.Counted

variable {R : Type} {ε ε' α β σ : Type}

/-- `c` does what `d` does, and counts. -/
def Agrees (c : Dec R ε α) (d : Wadec.Dec R ε α) : Prop := ∀ r, (c r).1 = d r

namespace Agrees

theorem step {c : Dec R ε α} {d : Wadec.Dec R ε α} (h : Agrees c d) : Agrees (Dec.step c) d := fun r => h r

theorem pure {a : α} : Agrees (Pure.pure a : Dec R ε α) (Pure.pure a : Wadec.Dec R ε α) := fun _ => rfl
theorem err {e : ε} : Agrees (Dec.err e : Dec R ε α) (Wadec.Dec.err e) := fun _ => rfl
theorem panic : Agrees (Dec.panic : Dec R ε α) Wadec.Dec.panic := fun _ => rfl
theorem fuel : Agrees (Dec.outOfFuel : Dec R ε α) Wadec.Dec.outOfFuel := fun _ => rfl
theorem reserve [Read R] {n : Nat} : Agrees (Dec.reserve n : Dec R ε Unit) (Wadec.Dec.reserve n) := fun _ => rfl

theorem bind {c : Dec R ε α} {d : Wadec.Dec R ε α} {f : α → Dec R ε β} {g : α → Wadec.Dec R ε β} (h : Agrees c d)
    (hf : ∀ a, Agrees (f a) (g a)) : Agrees (c >>= f) (d >>= g) := by
  intro r
  show (Dec.bind c f r).1 = Wadec.Dec.bind d g r
  have := h r
  unfold Dec.bind Wadec.Dec.bind
  rw [← this]
  rcases c r with ⟨⟨res, r'⟩, n⟩
  cases res <;> first | rfl | exact hf _ _

theorem charge {n : Nat} {f : Unit → Dec R ε β} {g : Wadec.Dec R ε β} (hf : Agrees (f ()) g) :
    Agrees (Dec.charge n >>= f) g := fun r => hf r

theorem mapErr {c : Dec R ε α} {d : Wadec.Dec R ε α} {f : ε → ε'} (h : Agrees c d) :
    Agrees (c.mapErr f) (d.mapErr f) := by
  intro r
  have := h r
  unfold Dec.mapErr Wadec.Dec.mapErr
  rw [← this]
  rcases c r with ⟨⟨res, r'⟩, n⟩
  cases res <;> rfl

theorem orElse {c : Dec R ε α} {d : Wadec.Dec R ε α} {f : α → β} {c' : Dec R ε' β} {d' : Wadec.Dec R ε' β} (h : Agrees c d)
    (h' : Agrees c' d') : Agrees (c.orElseDiscard f c') (d.orElseDiscard f d') := by
  intro r
  have := h r
  unfold Dec.orElseDiscard Wadec.Dec.orElseDiscard
  rw [← this]
  rcases c r with ⟨⟨res, r'⟩, n⟩
  cases res <;> first | rfl | exact h' _

theorem chain {b : UInt8} {c : Dec (Chain R) ε α} {d : Wadec.Dec (Chain R) ε α} (h : Agrees c d) :
    Agrees (Dec.withChain b c) (Wadec.Dec.withChain b d) := by
  intro r
  have := h ⟨[b], r⟩
  unfold Dec.withChain Wadec.Dec.withChain
  rw [← this]

theorem take {n : Nat} {c : Dec (Take R) ε α} {d : Wadec.Dec (Take R) ε α} (h : Agrees c d) :
    Agrees (Dec.withTake n c) (Wadec.Dec.withTake n d) := by
  intro r
  have := h ⟨n, r⟩
  unfold Dec.withTake Wadec.Dec.withTake
  rw [← this]
  rcases c ⟨n, r⟩ with ⟨⟨res, r'⟩, n⟩
  cases res <;> rfl

theorem ite {p : Prop} [Decidable p] {a b : Dec R ε α} {a' b' : Wadec.Dec R ε α} (ha : p → Agrees a a') (hb : ¬ p → Agrees b b') :
    Agrees (if p then a else b) (if p then a' else b') := by
  split <;> rename_i h
  · exact ha h
  · exact hb h

end Agrees

variable [Read R]

theorem same_readExactLoop : ∀ f n acc, Agrees (R := R) (readExactLoop f n acc) (Wadec.readExactLoop f n acc)
  | 0, _, _ => Agrees.step Agrees.fuel
  | f + 1, n, acc => by
    refine Agrees.step fun r => ?_
    unfold Wadec.readExactLoop
    by_cases hn : n = 0
    · subst hn; rfl
    · rw [if_neg hn, if_neg hn]
      rcases Read.read n r with ⟨res, r'⟩
      rcases res with e | bs
      · cases e <;> first | rfl | exact same_readExactLoop f n acc r'
      · cases bs with
        | nil => rfl
        | cons b bs => exact same_readExactLoop f _ _ r'

theorem same_readExact (n : Nat) : Agrees (R := R) (readExact n) (Wadec.readExact n) :=
  Agrees.step fun r => same_readExactLoop _ _ _ r

theorem same_readToEndLoop : ∀ f acc, Agrees (R := R) (readToEndLoop f acc) (Wadec.readToEndLoop f acc)
  | 0, _ => Agrees.step Agrees.fuel
  | f + 1, acc => by
    refine Agrees.step fun r => ?_
    unfold Wadec.readToEndLoop
    rcases Read.read (Read.room r + 1) r with ⟨res, r'⟩
    rcases res with e | bs
    · cases e <;> first | rfl | exact same_readToEndLoop f acc r'
    · cases bs with
      | nil => rfl
      | cons b bs => exact same_readToEndLoop f _ r'

theorem same_readToEnd : Agrees (R := R) readToEnd Wadec.readToEnd :=
  Agrees.step fun r => same_readToEndLoop _ _ r

theorem same_readByte : Agrees (R := R) readByte Wadec.readByte := by
  refine Agrees.step (Agrees.bind (same_readExact 1) fun buf => ?_)
  split
  · exact Agrees.pure
  · rename_i hb
    split
    · exact absurd rfl (hb _)
    · exact Agrees.panic

/-- The functions already dealt with. -/
class Agr (c : Dec R ε α) (d : Wadec.Dec R ε α) : Prop where
  agrees : Agrees c d
instance {n : Nat} : Agr (R := R) (readExact n) (Wadec.readExact n) := ⟨same_readExact n⟩
instance : Agr (R := R) readToEnd Wadec.readToEnd := ⟨same_readToEnd⟩
instance : Agr (R := R) readByte Wadec.readByte := ⟨same_readByte⟩

/-- One structural step. -/
syntax "same1" : tactic
macro_rules | `(tactic| same1) => `(tactic| with_reducible first
  | assumption
  | refine Agrees.step ?_
  | refine Agrees.charge ?_
  | refine Agrees.bind ?_ fun _ => ?_
  | refine Agrees.mapErr ?_
  | refine Agrees.ite (fun _ => ?_) (fun _ => ?_)
  | exact Agrees.pure | exact Agrees.err | exact Agrees.panic | exact Agrees.fuel | exact Agrees.reserve
  | refine Agrees.chain ?_
  | refine Agrees.take ?_
  | refine Agrees.orElse ?_ ?_
  | exact Agr.agrees)

end Wadec.Counted
