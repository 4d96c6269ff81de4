import Verif.Model.Module

/-! No call of `read` behind an end (C57).  `Clean r`: the reader has not reported an end of file or a
failure so far; `Ok r`: if it has, it has not been called since. -/

namespace Wadec

variable {R ε ε' α β σ : Type} [Read R] {Clean Ok : R → Prop}

structure Watched (Clean Ok : R → Prop) : Prop where
  ok : ∀ {r}, Clean r → Ok r
  data : ∀ {n r b bs r'}, Clean r → 0 < n → Read.read n r = (.ok (b :: bs), r') → Clean r'
  int : ∀ {n r r'}, Clean r → 0 < n → Read.read n r = (.error .interrupted, r') → Clean r'
  stop : ∀ {n r}, Clean r → 0 < n → Ok (Read.read n r).2
  reserve : ∀ {n r}, Clean r → Clean (Read.reserve n r)

theorem Watched.take (h : Watched Clean Ok) :
    Watched (fun t : Take R => Clean t.inner) (fun t => Ok t.inner) where
  ok := h.ok
  data := by
    rintro n ⟨l, i⟩ b bs r' g hn hr
    simp only [Read.read, Take.read] at hr
    split at hr
    · cases hr
    · rename_i hl
      split at hr <;> rename_i hi <;> cases hr
      exact h.data g (by omega) hi
  int := by
    rintro n ⟨l, i⟩ r' g hn hr
    simp only [Read.read, Take.read] at hr
    split at hr
    · cases hr
    · rename_i hl
      split at hr <;> rename_i hi <;> cases hr
      exact h.int g (by omega) hi
  stop := by
    rintro n ⟨l, i⟩ g hn
    simp only [Read.read, Take.read]
    split
    · exact h.ok g
    · rename_i hl
      have := h.stop (n := min n l) (r := i) g (by omega)
      split <;> rename_i hi <;> rw [hi] at this <;> exact this
  reserve := h.reserve

theorem Watched.chain (h : Watched Clean Ok) :
    Watched (fun c : Chain R => Clean c.inner) (fun c => Ok c.inner) where
  ok := h.ok
  data := by
    rintro n ⟨l, i⟩ b bs r' g hn hr
    simp only [Read.read, Chain.read] at hr
    cases l with
    | nil =>
      generalize hi : Read.read n i = o at hr
      obtain ⟨o1, i'⟩ := o
      cases hr
      exact h.data g hn hi
    | cons c cs =>
      simp only [Prod.mk.injEq] at hr
      rw [← hr.2]
      exact g
  int := by
    rintro n ⟨l, i⟩ r' g hn hr
    simp only [Read.read, Chain.read] at hr
    cases l with
    | nil =>
      generalize hi : Read.read n i = o at hr
      obtain ⟨o1, i'⟩ := o
      cases hr
      exact h.int g hn hi
    | cons c cs => cases hr
  stop := by
    rintro n ⟨l, i⟩ g hn
    simp only [Read.read, Chain.read]
    cases l with
    | nil => exact h.stop g hn
    | cons c cs => exact h.ok g
  reserve := h.reserve

/-- `d` makes no call behind an end, and if it succeeds it has not seen one. -/
def Calm (Clean Ok : R → Prop) (d : Dec R ε α) : Prop :=
  ∀ r, Clean r → Ok (d r).2 ∧ ∀ v, (d r).1 = .ok v → Clean (d r).2

namespace Calm

theorem pure (hr : Watched Clean Ok) {v : α} : Calm (ε := ε) Clean Ok (Pure.pure v) :=
  fun _ g => ⟨hr.ok g, fun _ _ => g⟩
theorem err (hr : Watched Clean Ok) {e : ε} : Calm (α := α) Clean Ok (Dec.err e) :=
  fun _ g => ⟨hr.ok g, fun _ _ => g⟩
theorem panic (hr : Watched Clean Ok) : Calm (ε := ε) (α := α) Clean Ok Dec.panic :=
  fun _ g => ⟨hr.ok g, fun _ _ => g⟩
theorem fuel (hr : Watched Clean Ok) : Calm (ε := ε) (α := α) Clean Ok Dec.outOfFuel :=
  fun _ g => ⟨hr.ok g, fun _ _ => g⟩

theorem bind {d : Dec R ε α} {f : α → Dec R ε β} (hd : Calm Clean Ok d)
    (hf : ∀ v, Calm Clean Ok (f v)) : Calm Clean Ok (d >>= f) := by
  intro r g
  have h := hd r g
  simp only [Bind.bind, Dec.bind]
  generalize d r = o at h
  obtain ⟨o1, r1⟩ := o
  cases o1 with
  | ok v => exact hf v r1 (h.2 v rfl)
  | _ => exact ⟨h.1, fun _ h => by cases h⟩

theorem mapErr {d : Dec R ε α} {f : ε → ε'} (hd : Calm Clean Ok d) : Calm Clean Ok (d.mapErr f) := by
  intro r g
  have h := hd r g
  simp only [Dec.mapErr]
  generalize d r = o at h
  obtain ⟨o1, r1⟩ := o
  cases o1 with
  | ok v => exact ⟨h.1, fun _ _ => h.2 v rfl⟩
  | _ => exact ⟨h.1, fun _ h => by cases h⟩

theorem ite {c : Prop} [Decidable c] {a b : Dec R ε α} (ha : Calm Clean Ok a) (hb : Calm Clean Ok b) :
    Calm Clean Ok (if c then a else b) := by
  split <;> assumption

theorem withChain {b : UInt8} {d : Dec (Chain R) ε α}
    (hd : Calm (fun c : Chain R => Clean c.inner) (fun c => Ok c.inner) d) :
    Calm Clean Ok (Dec.withChain b d) := fun r g => hd ⟨[b], r⟩ g

theorem withTake {n : Nat} {d : Dec (Take R) ε α}
    (hd : Calm (fun t : Take R => Clean t.inner) (fun t => Ok t.inner) d) :
    Calm Clean Ok (Dec.withTake n d) := by
  intro r g
  have h := hd ⟨n, r⟩ g
  simp only [Dec.withTake]
  generalize d ⟨n, r⟩ = o at h
  obtain ⟨o1, r1⟩ := o
  cases o1 with
  | ok v => exact ⟨h.1, fun _ _ => h.2 v rfl⟩
  | _ => exact ⟨h.1, fun _ h => by cases h⟩

theorem reserve (hr : Watched Clean Ok) {n : Nat} : Calm (ε := ε) Clean Ok (Dec.reserve n) :=
  fun _ g => ⟨hr.ok (hr.reserve g), fun _ _ => hr.reserve g⟩

theorem readExactLoop (hr : Watched Clean Ok) : ∀ f n acc, Calm Clean Ok (readExactLoop f n acc)
  | 0, _, _ => fuel hr
  | f + 1, n, acc => by
    intro r g
    simp only [Wadec.readExactLoop]
    split
    · exact ⟨hr.ok g, fun _ _ => g⟩
    · rename_i h0
      have h0 : 0 < n := by omega
      have hs := hr.stop g h0
      split <;> rename_i h1 <;> rw [h1] at hs
      · exact ⟨hs, fun _ h => by cases h⟩
      · exact readExactLoop hr f _ _ _ (hr.data g h0 h1)
      · exact readExactLoop hr f _ _ _ (hr.int g h0 h1)
      · exact ⟨hs, fun _ h => by cases h⟩

theorem readExact (hr : Watched Clean Ok) {n : Nat} : Calm Clean Ok (readExact n) :=
  fun r g => readExactLoop hr _ _ _ r g

theorem readByte (hr : Watched Clean Ok) : Calm Clean Ok readByte :=
  bind (readExact hr) fun _ => by split <;> first | exact pure hr | exact panic hr

end Calm

/-- `read_to_end` within a `take`: an end of the inner reader leaves a limit. -/
theorem readToEndLoop_calm (hr : Watched Clean Ok) : ∀ f acc (t : Take R), Clean t.inner →
    Ok (readToEndLoop f acc t).2.inner ∧
    ∀ v, (readToEndLoop f acc t).1 = .ok v →
      Clean (readToEndLoop f acc t).2.inner ∨ (readToEndLoop f acc t).2.limit ≠ 0
  | 0, _, _, g => ⟨hr.ok g, fun _ h => by cases h⟩
  | f + 1, acc, t, g => by
    have hs := hr.take.stop (n := Read.room t + 1) (r := t) g (by omega)
    simp only [Wadec.readToEndLoop]
    split <;> rename_i h1
    · rename_i r1
      rw [h1] at hs
      refine ⟨hs, fun _ _ => ?_⟩
      by_cases hl : t.limit = 0
      · simp only [Read.read, Take.read, if_pos hl] at h1
        cases h1
        exact .inl g
      · right
        simp only [Read.read, Take.read, if_neg hl] at h1
        split at h1 <;> cases h1
        exact hl
    · exact readToEndLoop_calm hr f _ _ (hr.take.data (r := t) g (by omega) h1)
    · exact readToEndLoop_calm hr f _ _ (hr.take.int (r := t) g (by omega) h1)
    · rw [h1] at hs
      exact ⟨hs, fun _ h => by cases h⟩

theorem chain_readByte (b : UInt8) (l : List UInt8) (i : R) :
    readByte (⟨b :: l, i⟩ : Chain R) = (.ok b, ⟨l, i⟩) := by
  have h : Read.weight (⟨b :: l, i⟩ : Chain R) + 1 = (l.length + Read.weight i) + 1 + 1 := by
    simp only [Read.weight, List.length_cons]
    omega
  have h2 : readExact 1 (⟨b :: l, i⟩ : Chain R) = (.ok [b], ⟨l, i⟩) := by
    unfold Wadec.readExact
    rw [h]
    simp [Wadec.readExactLoop, Read.read, Chain.read]
  simp only [Wadec.readByte, Bind.bind, Dec.bind, h2]
  rfl

/-- One step of a `Calm` proof; what the decoder calls is among the hypotheses. -/
macro "calmstep" : tactic => `(tactic| with_reducible first
  | exact Calm.pure (by assumption) | exact Calm.err (by assumption) | exact Calm.panic (by assumption)
  | exact Calm.readByte (by assumption) | exact Calm.readExact (by assumption)
  | assumption
  | refine Calm.mapErr ?_ | refine Calm.bind ?_ fun _ => ?_ | refine Calm.ite ?_ ?_
  | refine Calm.withChain ?_)

macro "calm" : tactic => `(tactic| repeat' (first | calmstep | split))

end Wadec
