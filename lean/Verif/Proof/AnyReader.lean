import Verif.Model.Module

/-! Backward simulation of readers (C56).  If every `read` of a reader `R` can be mirrored by a reader
`S` that already knows the future (`Sim`), then every run of `decode_module` on `R` that returns is
mirrored by a run on `S`. -/

namespace Wadec

variable {R S ε ε' α β σ : Type} [Read R] [Read S] {Rel : R → S → Prop}

/-- Going backwards: a state of `S` that corresponds to the state of `R` after a `read` determines one
that corresponds to the state before, from which `S` reads the same. -/
structure Sim (Rel : R → S → Prop) : Prop where
  read : ∀ {n r res r' s'}, Read.read n r = (res, r') → Rel r' s' →
    ∃ s, Rel r s ∧ Read.read n s = (res, s')
  weight : ∀ {r s}, Rel r s → Read.weight r ≤ Read.weight s
  reserve : ∀ {n r s'}, Rel (Read.reserve n r) s' → ∃ s, Rel r s ∧ Read.reserve n s = s'
  room : ∀ {r s}, Rel r s → Read.room r = Read.room s

/-- Every run of `d` that does not exhaust its step budget is mirrored by `d'`. -/
def Sims (Rel : R → S → Prop) (d : Dec R ε α) (d' : Dec S ε α) : Prop :=
  ∀ r res r' s', d r = (res, r') → res ≠ .fuel → Rel r' s' → ∃ s, Rel r s ∧ d' s = (res, s')

/-! ### Simulations under `take` and `chain` -/

def RelTake (Rel : R → S → Prop) (t : Take R) (u : Take S) : Prop :=
  t.limit = u.limit ∧ Rel t.inner u.inner

def RelChain (Rel : R → S → Prop) (t : Chain R) (u : Chain S) : Prop :=
  t.first = u.first ∧ Rel t.inner u.inner

theorem Sim.take (h : Sim Rel) : Sim (RelTake Rel) where
  read := by
    rintro n ⟨l, i⟩ res r' ⟨ul, ui⟩ hr ⟨h1, h2⟩
    simp only [Read.read, Take.read] at hr ⊢
    split at hr
    · rename_i hl
      cases hr
      exact ⟨⟨l, ui⟩, ⟨rfl, h2⟩, by simp only at h1 hl; simp [hl, ← h1]⟩
    · rename_i hl
      split at hr
      · rename_i bs i' hi
        cases hr
        obtain ⟨s, h3, h4⟩ := h.read hi h2
        refine ⟨⟨l, s⟩, ⟨rfl, h3⟩, ?_⟩
        simp only at hl h1 ⊢
        rw [if_neg hl, h4, ← h1]
      · rename_i e i' hi
        cases hr
        obtain ⟨s, h3, h4⟩ := h.read hi h2
        refine ⟨⟨l, s⟩, ⟨rfl, h3⟩, ?_⟩
        simp only at hl h1 ⊢
        rw [if_neg hl, h4, h1]
  weight := fun h' => h.weight h'.2
  reserve := by
    rintro n ⟨l, i⟩ ⟨ul, ui⟩ ⟨h1, h2⟩
    obtain ⟨s, h3, h4⟩ := h.reserve h2
    exact ⟨⟨l, s⟩, ⟨rfl, h3⟩, by simp only [Read.reserve] at h1 h4 ⊢; rw [h4, h1]⟩
  room := fun h' => h.room h'.2

theorem Sim.chain (h : Sim Rel) : Sim (RelChain Rel) where
  read := by
    rintro n ⟨l, i⟩ res r' ⟨ul, ui⟩ hr ⟨h1, h2⟩
    cases l with
    | nil =>
      simp only [Read.read, Chain.read] at hr
      generalize hi : Read.read n i = o at hr
      obtain ⟨o1, i'⟩ := o
      cases hr
      obtain ⟨s, h3, h4⟩ := h.read hi h2
      refine ⟨⟨[], s⟩, ⟨rfl, h3⟩, ?_⟩
      simp only [Read.read, Chain.read]
      simp only at h1
      rw [h4, h1]
    | cons b bs =>
      simp only [Read.read, Chain.read] at hr
      cases hr
      refine ⟨⟨b :: bs, ui⟩, ⟨rfl, h2⟩, ?_⟩
      simp only [Read.read, Chain.read]
      simp only at h1
      rw [h1]
  weight := fun h' => by
    have := h.weight h'.2
    simp only [Read.weight, h'.1]
    omega
  reserve := by
    rintro n ⟨l, i⟩ ⟨ul, ui⟩ ⟨h1, h2⟩
    obtain ⟨s, h3, h4⟩ := h.reserve h2
    exact ⟨⟨l, s⟩, ⟨rfl, h3⟩, by simp only [Read.reserve] at h1 h4 ⊢; rw [h4, h1]⟩
  room := fun h' => h.room h'.2

/-! ### Rules -/

namespace Sims

theorem pure {v : α} : Sims (ε := ε) Rel (Pure.pure v) (Pure.pure v) := by
  intro r res r' s' h _ hr
  cases h
  exact ⟨s', hr, rfl⟩

theorem err {e : ε} : Sims (α := α) Rel (Dec.err e) (Dec.err e) := by
  intro r res r' s' h _ hr
  cases h
  exact ⟨s', hr, rfl⟩

theorem panic : Sims (α := α) (ε := ε) Rel Dec.panic Dec.panic := by
  intro r res r' s' h _ hr
  cases h
  exact ⟨s', hr, rfl⟩

theorem fuel {d' : Dec S ε α} : Sims Rel Dec.outOfFuel d' := by
  intro r res r' s' h hf hr
  cases h
  exact absurd rfl hf

theorem bind {d : Dec R ε α} {d' : Dec S ε α} {f : α → Dec R ε β} {f' : α → Dec S ε β}
    (hd : Sims Rel d d') (hf : ∀ v, Sims Rel (f v) (f' v)) : Sims Rel (d >>= f) (d' >>= f') := by
  intro r res r' s' h hn hr
  simp only [Bind.bind, Dec.bind] at h ⊢
  generalize hd1 : d r = o at h
  obtain ⟨o1, r1⟩ := o
  cases o1 with
  | ok v =>
    obtain ⟨s1, h1, h2⟩ := hf v _ _ _ _ h hn hr
    obtain ⟨s, h3, h4⟩ := hd _ _ _ _ hd1 (by simp) h1
    exact ⟨s, h3, by rw [h4]; exact h2⟩
  | fuel => cases h; exact absurd rfl hn
  | _ =>
    cases h
    obtain ⟨s, h3, h4⟩ := hd _ _ _ _ hd1 (by simp) hr
    exact ⟨s, h3, by rw [h4]⟩

theorem mapErr {d : Dec R ε α} {d' : Dec S ε α} {f : ε → ε'} (hd : Sims Rel d d') :
    Sims Rel (d.mapErr f) (d'.mapErr f) := by
  intro r res r' s' h hn hr
  simp only [Dec.mapErr] at h ⊢
  generalize hd1 : d r = o at h
  obtain ⟨o1, r1⟩ := o
  cases o1 with
  | fuel => cases h; exact absurd rfl hn
  | _ =>
    cases h
    obtain ⟨s, h3, h4⟩ := hd _ _ _ _ hd1 (by simp) hr
    exact ⟨s, h3, by rw [h4]⟩

theorem ite {c : Prop} [Decidable c] {a b : Dec R ε α} {a' b' : Dec S ε α} (ha : Sims Rel a a')
    (hb : Sims Rel b b') : Sims Rel (if c then a else b) (if c then a' else b') := by
  split <;> assumption

theorem orElseDiscard {d : Dec R ε α} {d' : Dec S ε α} {f : α → β} {g : Dec R ε' β} {g' : Dec S ε' β}
    (hd : Sims Rel d d') (hg : Sims Rel g g') :
    Sims Rel (Dec.orElseDiscard d f g) (Dec.orElseDiscard d' f g') := by
  intro r res r' s' h hn hr
  simp only [Dec.orElseDiscard] at h ⊢
  generalize hd1 : d r = o at h
  obtain ⟨o1, r1⟩ := o
  cases o1 with
  | fuel => cases h; exact absurd rfl hn
  | err e =>
    obtain ⟨s1, h1, h2⟩ := hg _ _ _ _ h hn hr
    obtain ⟨s, h3, h4⟩ := hd _ _ _ _ hd1 (by simp) h1
    exact ⟨s, h3, by rw [h4]; exact h2⟩
  | _ =>
    cases h
    obtain ⟨s, h3, h4⟩ := hd _ _ _ _ hd1 (by simp) hr
    exact ⟨s, h3, by rw [h4]⟩

theorem withChain {b : UInt8} {d : Dec (Chain R) ε α} {d' : Dec (Chain S) ε α}
    (hd : Sims (RelChain Rel) d d') : Sims Rel (Dec.withChain b d) (Dec.withChain b d') := by
  intro r res r' s' h hn hr
  simp only [Dec.withChain] at h ⊢
  generalize hd1 : d ⟨[b], r⟩ = o at h
  obtain ⟨o1, c⟩ := o
  cases h
  obtain ⟨⟨f, i⟩, ⟨h3, h5⟩, h4⟩ := hd _ _ _ ⟨c.first, s'⟩ hd1 hn ⟨rfl, hr⟩
  simp only at h3 h5
  exact ⟨i, h5, by rw [h3, h4]⟩

theorem withTake {n : Nat} {d : Dec (Take R) ε α} {d' : Dec (Take S) ε α}
    (hd : Sims (RelTake Rel) d d') : Sims Rel (Dec.withTake n d) (Dec.withTake n d') := by
  intro r res r' s' h hn hr
  simp only [Dec.withTake] at h ⊢
  generalize hd1 : d ⟨n, r⟩ = o at h
  obtain ⟨o1, c⟩ := o
  cases o1 with
  | fuel => cases h; exact absurd rfl hn
  | _ =>
    cases h
    obtain ⟨⟨f, i⟩, ⟨h3, h5⟩, h4⟩ := hd _ _ _ ⟨c.limit, s'⟩ hd1 (by simp) ⟨rfl, hr⟩
    simp only at h3 h5
    exact ⟨i, h5, by rw [h3, h4]⟩

theorem reserve (hs : Sim Rel) {n : Nat} : Sims (ε := ε) Rel (Dec.reserve n) (Dec.reserve n) := by
  intro r res r' s' h _ hr
  simp only [Dec.reserve] at h ⊢
  cases h
  obtain ⟨s, h1, h2⟩ := hs.reserve hr
  exact ⟨s, h1, by rw [h2]⟩

end Sims

theorem Sim.eq : Sim (Eq : S → S → Prop) where
  read := fun h e => ⟨_, rfl, by rw [h, e]⟩
  weight := fun e => by rw [e]; exact Nat.le_refl _
  reserve := fun e => ⟨_, rfl, e⟩
  room := fun e => by rw [e]

namespace Sims

/-- The step budget of a loop may depend on the reader if more budget does no harm. -/
theorem budget (hs : Sim Rel) {d : Nat → Dec R ε α} {d' : Nat → Dec S ε α}
    (h : ∀ n, Sims Rel (d n) (d' n)) (hm : ∀ n n', n ≤ n' → Sims Eq (d' n) (d' n')) :
    Sims Rel (fun r => d (Read.weight r + 1) r) (fun s => d' (Read.weight s + 1) s) := by
  intro r res r' s' hd hn hr
  obtain ⟨s, h1, h2⟩ := h _ r res r' s' hd hn hr
  have hw := hs.weight h1
  obtain ⟨s2, rfl, h4⟩ := hm _ (Read.weight s + 1) (by omega) s res s' s' h2 hn rfl
  exact ⟨s, h1, h4⟩

theorem readExactLoop (hs : Sim Rel) : ∀ f f' n acc, f ≤ f' →
    Sims Rel (readExactLoop f n acc) (readExactLoop f' n acc)
  | 0, _, _, _, _ => fuel
  | f + 1, 0, _, _, h => absurd h (by omega)
  | f + 1, f' + 1, n, acc, hle => by
    intro r res r' s' h hn hr
    simp only [Wadec.readExactLoop] at h ⊢
    split at h
    · rename_i h0
      cases h
      exact ⟨s', hr, by simp [h0]⟩
    · rename_i h0
      split at h
      · rename_i r1 hr1
        cases h
        obtain ⟨s, h1, h2⟩ := hs.read hr1 hr
        exact ⟨s, h1, by simp [h0, h2]⟩
      · rename_i b bs r1 hr1
        obtain ⟨s1, h1, h2⟩ := readExactLoop hs f f' _ _ (by omega) _ _ _ _ h hn hr
        obtain ⟨s, h3, h4⟩ := hs.read hr1 h1
        exact ⟨s, h3, by rw [if_neg h0, h4]; exact h2⟩
      · rename_i r1 hr1
        obtain ⟨s1, h1, h2⟩ := readExactLoop hs f f' _ _ (by omega) _ _ _ _ h hn hr
        obtain ⟨s, h3, h4⟩ := hs.read hr1 h1
        exact ⟨s, h3, by rw [if_neg h0, h4]; exact h2⟩
      · rename_i e r1 hne hr1
        cases h
        obtain ⟨s, h1, h2⟩ := hs.read hr1 hr
        refine ⟨s, h1, ?_⟩
        rw [if_neg h0, h2]
        cases e with
        | interrupted => exact absurd rfl hne
        | _ => rfl

theorem readExact (hs : Sim Rel) {n : Nat} : Sims Rel (readExact n) (readExact n) :=
  budget hs (d := fun f => Wadec.readExactLoop f n []) (d' := fun f => Wadec.readExactLoop f n [])
    (fun _ => readExactLoop hs _ _ _ _ (Nat.le_refl _)) (fun _ _ h => readExactLoop Sim.eq _ _ _ _ h)

theorem readToEndLoop (hs : Sim Rel) : ∀ f f' acc, f ≤ f' →
    Sims Rel (readToEndLoop f acc) (readToEndLoop f' acc)
  | 0, _, _, _ => fuel
  | f + 1, 0, _, h => absurd h (by omega)
  | f + 1, f' + 1, acc, hle => by
    intro r res r' s' h hn hr
    simp only [Wadec.readToEndLoop] at h ⊢
    split at h
    · rename_i r1 hr1
      cases h
      obtain ⟨s, h1, h2⟩ := hs.read hr1 hr
      exact ⟨s, h1, by rw [← hs.room h1]; simp [h2]⟩
    · rename_i b bs r1 hr1
      obtain ⟨s1, h1, h2⟩ := readToEndLoop hs f f' _ (by omega) _ _ _ _ h hn hr
      obtain ⟨s, h3, h4⟩ := hs.read hr1 h1
      exact ⟨s, h3, by rw [← hs.room h3, h4]; exact h2⟩
    · rename_i r1 hr1
      obtain ⟨s1, h1, h2⟩ := readToEndLoop hs f f' _ (by omega) _ _ _ _ h hn hr
      obtain ⟨s, h3, h4⟩ := hs.read hr1 h1
      exact ⟨s, h3, by rw [← hs.room h3, h4]; exact h2⟩
    · rename_i e r1 hne hr1
      cases h
      obtain ⟨s, h1, h2⟩ := hs.read hr1 hr
      refine ⟨s, h1, ?_⟩
      rw [← hs.room h1, h2]
      cases e with
      | interrupted => exact absurd rfl hne
      | _ => rfl

theorem readToEnd (hs : Sim Rel) : Sims Rel readToEnd readToEnd :=
  budget hs (d := fun f => Wadec.readToEndLoop f []) (d' := fun f => Wadec.readToEndLoop f [])
    (fun _ => readToEndLoop hs _ _ _ (Nat.le_refl _)) (fun _ _ h => readToEndLoop Sim.eq _ _ _ h)

theorem readByte (hs : Sim Rel) : Sims Rel readByte readByte :=
  bind (readExact hs) fun _ => by split <;> first | exact pure | exact panic

end Sims

/-- One step of a `Sims` proof; what the decoder calls is among the hypotheses. -/
macro "simstep" : tactic => `(tactic| with_reducible first
  | exact Sims.pure | exact Sims.err | exact Sims.panic | exact Sims.fuel
  | exact Sims.readByte (by assumption) | exact Sims.readExact (by assumption)
  | assumption
  | refine Sims.mapErr ?_ | refine Sims.bind ?_ fun _ => ?_ | refine Sims.ite ?_ ?_
  | refine Sims.withChain ?_)

macro "sims" : tactic => `(tactic| repeat' (first | simstep | split))

end Wadec
