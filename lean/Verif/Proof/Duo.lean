import Verif.Proof.CalmAll

/-! Two runs side by side (C80).  `R` is a reader, `S` one that delivers the same results of `read` up
to a certain number of bytes (a chunk that crosses this border is cut) and then fails with `X`.  Either
the two runs agree throughout, and then the run on `R` stays within these bytes; or it goes beyond them,
and then the run on `S` ends with an error that contains `X`, or is `murky`. -/

namespace Wadec

/-- What is known about the two readers at a given moment.  `Rel`: they have behaved alike so far;
`Beyond`: `R` has delivered more than the common bytes, or an end; `Cut`: `S` is behind the common
bytes; `Done`: and has said so; `N`: a condition on the last byte `R` has delivered. -/
structure Scene (R S : Type) where
  Rel : R → S → Prop
  Beyond : R → Prop
  Cut : S → Prop
  Done : S → Prop
  N : R → Prop
  X : IoError

variable {R S ε ε' α β σ : Type} [Read R] [Read S] {c : Scene R S}

structure Scene.Fair (c : Scene R S) : Prop where
  step : ∀ {n r s}, c.Rel r s → 0 < n →
    ((Read.read n r).1 = (Read.read n s).1 ∧ c.Rel (Read.read n r).2 (Read.read n s).2) ∨
    (c.Beyond (Read.read n r).2 ∧ (Read.read n s).1 = .error c.X ∧ c.Done (Read.read n s).2) ∨
    (c.Beyond (Read.read n r).2 ∧ (∃ b d, (Read.read n s).1 = .ok (b :: d) ∧ (b :: d).length < n) ∧
      c.Cut (Read.read n s).2)
  cut : ∀ {n s}, c.Cut s → 0 < n → (Read.read n s).1 = .error c.X ∧ c.Done (Read.read n s).2
  far : ∀ {n r}, c.Beyond r → 0 < n → c.Beyond (Read.read n r).2
  not : ∀ {r s}, c.Rel r s → ¬ c.Beyond r
  weight : ∀ {r s}, c.Rel r s → Read.weight r = Read.weight s
  room : ∀ {r s}, c.Rel r s → Read.room r = Read.room s
  reserve : ∀ {n r s}, c.Rel r s → c.Rel (Read.reserve n r) (Read.reserve n s)
  reserveFar : ∀ {n r}, c.Beyond r → c.Beyond (Read.reserve n r)
  int : c.X ≠ .interrupted
  eof : c.X ≠ .unexpectedEof

def Scene.take (c : Scene R S) : Scene (Take R) (Take S) where
  Rel t u := t.limit = u.limit ∧ c.Rel t.inner u.inner
  Beyond t := c.Beyond t.inner
  Cut u := u.limit ≠ 0 ∧ c.Cut u.inner
  Done u := c.Done u.inner
  N t := c.N t.inner
  X := c.X

def Scene.chain (c : Scene R S) : Scene (Chain R) (Chain S) where
  Rel t u := t.first = u.first ∧ c.Rel t.inner u.inner
  Beyond t := c.Beyond t.inner
  Cut u := u.first = [] ∧ c.Cut u.inner
  Done u := c.Done u.inner
  N t := c.N t.inner
  X := c.X

theorem take_read (n l : Nat) (i : R) : Read.read n (⟨l, i⟩ : Take R) =
    if l = 0 then (.ok [], ⟨l, i⟩) else
      match Read.read (min n l) i with
      | (.ok bs, i') => (.ok bs, ⟨l - bs.length, i'⟩)
      | (.error e, i') => (.error e, ⟨l, i'⟩) := rfl

theorem Scene.Fair.take (h : c.Fair) : c.take.Fair where
  step := by
    rintro n ⟨l, r⟩ ⟨l', s⟩ ⟨hl, hr⟩ hn
    simp only at hl hr
    subst hl
    rw [take_read, take_read]
    by_cases h0 : l = 0
    · rw [if_pos h0, if_pos h0]
      exact .inl ⟨rfl, rfl, hr⟩
    · rw [if_neg h0, if_neg h0]
      have := h.step hr (n := min n l) (by omega)
      generalize Read.read (min n l) r = o at this
      generalize Read.read (min n l) s = o' at this
      obtain ⟨o, r1⟩ := o
      obtain ⟨o', s1⟩ := o'
      simp only at this
      rcases this with ⟨h1, h2⟩ | ⟨h1, h2, h3⟩ | ⟨h1, ⟨b, d, h2, h4⟩, h3⟩
      · subst h1
        cases o <;> exact .inl ⟨rfl, rfl, h2⟩
      · subst h2
        refine .inr (.inl ⟨?_, rfl, h3⟩)
        cases o <;> exact h1
      · subst h2
        refine .inr (.inr ⟨?_, ⟨b, d, rfl, by omega⟩, ?_, h3⟩)
        · cases o <;> exact h1
        · show l - (b :: d).length ≠ 0
          omega
  cut := by
    rintro n ⟨l, s⟩ ⟨hl, hc⟩ hn
    rw [take_read]
    simp only at hl hc
    rw [if_neg hl]
    have := h.cut hc (n := min n l) (by omega)
    generalize Read.read (min n l) s = o' at this
    obtain ⟨o', s1⟩ := o'
    simp only at this
    obtain ⟨rfl, h2⟩ := this
    exact ⟨rfl, h2⟩
  far := by
    rintro n ⟨l, r⟩ hb hn
    rw [take_read]
    by_cases h0 : l = 0
    · rw [if_pos h0]
      exact hb
    · rw [if_neg h0]
      have := h.far (n := min n l) (r := r) hb (by omega)
      generalize Read.read (min n l) r = o at this
      obtain ⟨o, r1⟩ := o
      cases o <;> exact this
  not := fun hr => h.not hr.2
  weight := fun hr => h.weight hr.2
  room := fun hr => h.room hr.2
  reserve := fun hr => ⟨hr.1, h.reserve hr.2⟩
  reserveFar := fun hr => h.reserveFar hr
  int := h.int
  eof := h.eof

theorem chain_read_nil (n : Nat) (i : R) : Read.read n (⟨[], i⟩ : Chain R) =
    ((Read.read n i).1, ⟨[], (Read.read n i).2⟩) := rfl

theorem chain_read_cons (n : Nat) (b : UInt8) (l : List UInt8) (i : R) :
    Read.read n (⟨b :: l, i⟩ : Chain R) = (.ok ((b :: l).take n), ⟨(b :: l).drop n, i⟩) := rfl

theorem Scene.Fair.chain (h : c.Fair) : c.chain.Fair where
  step := by
    rintro n ⟨l, r⟩ ⟨l', s⟩ ⟨hl, hr⟩ hn
    simp only at hl hr
    subst hl
    cases l with
    | nil =>
      rw [chain_read_nil, chain_read_nil]
      rcases h.step hr hn with ⟨h1, h2⟩ | h1 | ⟨h1, h2, h3⟩
      · exact .inl ⟨h1, rfl, h2⟩
      · exact .inr (.inl h1)
      · exact .inr (.inr ⟨h1, h2, rfl, h3⟩)
    | cons b l =>
      rw [chain_read_cons, chain_read_cons]
      exact .inl ⟨rfl, rfl, hr⟩
  cut := by
    rintro n ⟨l, s⟩ ⟨hl, hc⟩ hn
    simp only at hl hc
    subst hl
    exact h.cut hc hn
  far := by
    rintro n ⟨l, r⟩ hb hn
    cases l with
    | nil => exact h.far (r := r) hb hn
    | cons b l => exact hb
  not := fun hr => h.not hr.2
  weight := by
    rintro ⟨l, r⟩ ⟨l', s⟩ ⟨hl, hr⟩
    simp only at hl hr
    subst hl
    simp only [Read.weight, h.weight hr]
  room := fun hr => h.room hr.2
  reserve := fun hr => ⟨hr.1, h.reserve hr.2⟩
  reserveFar := fun hr => h.reserveFar hr
  int := h.int
  eof := h.eof

/-- How the two runs of a decoder end. -/
def Meets [ErrInfo ε] (c : Scene R S) (o : Res ε α × R) (o' : Res ε α × S) : Prop :=
  o'.1 = .fuel ∨ (o.1 = o'.1 ∧ c.Rel o.2 o'.2) ∨
  (c.Beyond o.2 ∧ ∃ e, o'.1 = .err e ∧ (ErrInfo.root e = some c.X ∨ ErrInfo.murky e = true) ∧ c.Done o'.2)

structure Duo [ErrInfo ε] (c : Scene R S) (d : Dec R ε α) (d' : Dec S ε α) : Prop where
  far : ∀ r, c.Beyond r → c.Beyond (d r).2
  lit : ∀ r e, (d r).1 = .err e → ErrInfo.murky e = true → c.N (d r).2
  rel : ∀ r s, c.Rel r s → Meets c (d r) (d' s)

namespace Duo

variable [ErrInfo ε] [ErrInfo ε']

theorem pure {v : α} : Duo (ε := ε) c (Pure.pure v) (Pure.pure v) where
  far := fun _ h => h
  lit := fun _ _ h => by cases h
  rel := fun _ _ h => .inr (.inl ⟨rfl, h⟩)

theorem err {e : ε} (he : ErrInfo.murky e = false) : Duo (α := α) c (Dec.err e) (Dec.err e) where
  far := fun _ h => h
  lit := fun _ e' h hm => by
    cases h
    rw [he] at hm
    cases hm
  rel := fun _ _ h => .inr (.inl ⟨rfl, h⟩)

theorem panic : Duo (ε := ε) (α := α) c Dec.panic Dec.panic where
  far := fun _ h => h
  lit := fun _ _ h => by cases h
  rel := fun _ _ h => .inr (.inl ⟨rfl, h⟩)

theorem fuel : Duo (ε := ε) (α := α) c Dec.outOfFuel Dec.outOfFuel where
  far := fun _ h => h
  lit := fun _ _ h => by cases h
  rel := fun _ _ h => .inr (.inl ⟨rfl, h⟩)

theorem bind {d : Dec R ε α} {d' : Dec S ε α} {f : α → Dec R ε β} {f' : α → Dec S ε β}
    (hd : Duo c d d') (hf : ∀ v, Duo c (f v) (f' v)) : Duo c (d >>= f) (d' >>= f') where
  far := by
    intro r h
    have h1 := hd.far r h
    simp only [Bind.bind, Dec.bind]
    generalize d r = o at h1
    obtain ⟨o, r1⟩ := o
    cases o with
    | ok v => exact (hf v).far r1 h1
    | _ => exact h1
  lit := by
    intro r e h hm
    have h1 := hd.lit r
    simp only [Bind.bind, Dec.bind] at h ⊢
    generalize d r = o at h1 h
    obtain ⟨o, r1⟩ := o
    cases o with
    | ok v => exact (hf v).lit r1 e h hm
    | err e' => cases h; exact h1 _ rfl hm
    | panic => cases h
    | fuel => cases h
  rel := by
    intro r s h
    have h1 := hd.rel r s h
    simp only [Bind.bind, Dec.bind]
    generalize d r = o at h1
    generalize d' s = o' at h1
    obtain ⟨o, r1⟩ := o
    obtain ⟨o', s1⟩ := o'
    rcases h1 with h1 | ⟨h1, h2⟩ | ⟨h1, e, h2, h3, h4⟩
    · simp only at h1
      subst h1
      exact .inl rfl
    · simp only at h1
      subst h1
      cases o with
      | ok v => exact (hf v).rel r1 s1 h2
      | _ => exact .inr (.inl ⟨rfl, h2⟩)
    · simp only at h2
      subst h2
      refine .inr (.inr ⟨?_, e, rfl, h3, h4⟩)
      cases o with
      | ok v => exact (hf v).far r1 h1
      | _ => exact h1

theorem mapErr {d : Dec R ε α} {d' : Dec S ε α} {f : ε → ε'}
    (hr : ∀ e, ErrInfo.root (f e) = ErrInfo.root e) (hm : ∀ e, ErrInfo.murky (f e) = ErrInfo.murky e)
    (hd : Duo c d d') : Duo c (d.mapErr f) (d'.mapErr f) where
  far := by
    intro r h
    have h1 := hd.far r h
    simp only [Dec.mapErr]
    generalize d r = o at h1
    obtain ⟨o, r1⟩ := o
    cases o <;> exact h1
  lit := by
    intro r e h hm'
    have h1 := hd.lit r
    simp only [Dec.mapErr] at h ⊢
    generalize d r = o at h1 h
    obtain ⟨o, r1⟩ := o
    cases o with
    | err e' => cases h; exact h1 _ rfl (by rw [← hm]; exact hm')
    | _ => cases h
  rel := by
    intro r s h
    have h1 := hd.rel r s h
    simp only [Dec.mapErr]
    generalize d r = o at h1
    generalize d' s = o' at h1
    obtain ⟨o, r1⟩ := o
    obtain ⟨o', s1⟩ := o'
    rcases h1 with h1 | ⟨h1, h2⟩ | ⟨h1, e, h2, h3, h4⟩
    · simp only at h1
      subst h1
      exact .inl rfl
    · simp only at h1
      subst h1
      cases o <;> exact .inr (.inl ⟨rfl, h2⟩)
    · simp only at h2
      subst h2
      refine .inr (.inr ⟨?_, f e, rfl, by rw [hr, hm]; exact h3, h4⟩)
      cases o <;> exact h1

theorem ite {p : Prop} [Decidable p] {a b : Dec R ε α} {a' b' : Dec S ε α} (ha : Duo c a a')
    (hb : Duo c b b') : Duo c (if p then a else b) (if p then a' else b') := by
  split <;> assumption

theorem withChain {b : UInt8} {d : Dec (Chain R) ε α} {d' : Dec (Chain S) ε α}
    (hd : Duo c.chain d d') : Duo c (Dec.withChain b d) (Dec.withChain b d') where
  far := fun r h => hd.far ⟨[b], r⟩ h
  lit := fun r e h hm => hd.lit ⟨[b], r⟩ e h hm
  rel := by
    intro r s h
    rcases hd.rel ⟨[b], r⟩ ⟨[b], s⟩ ⟨rfl, h⟩ with h1 | ⟨h1, h2⟩ | h1
    · exact .inl h1
    · exact .inr (.inl ⟨h1, h2.2⟩)
    · exact .inr (.inr h1)

theorem withTake {n : Nat} {d : Dec (Take R) ε α} {d' : Dec (Take S) ε α}
    (hd : Duo c.take d d') : Duo c (Dec.withTake n d) (Dec.withTake n d') where
  far := by
    intro r h
    have h1 := hd.far ⟨n, r⟩ h
    simp only [Dec.withTake]
    generalize d ⟨n, r⟩ = o at h1
    obtain ⟨o, r1⟩ := o
    cases o <;> exact h1
  lit := by
    intro r e h hm
    have h1 := hd.lit ⟨n, r⟩
    simp only [Dec.withTake] at h ⊢
    generalize d ⟨n, r⟩ = o at h1 h
    obtain ⟨o, r1⟩ := o
    cases o with
    | err e' => cases h; exact h1 _ rfl hm
    | _ => cases h
  rel := by
    intro r s h
    have h1 := hd.rel ⟨n, r⟩ ⟨n, s⟩ ⟨rfl, h⟩
    simp only [Dec.withTake]
    generalize d ⟨n, r⟩ = o at h1
    generalize d' ⟨n, s⟩ = o' at h1
    obtain ⟨o, r1⟩ := o
    obtain ⟨o', s1⟩ := o'
    rcases h1 with h1 | ⟨h1, h0, h2⟩ | ⟨h1, e, h2, h3, h4⟩
    · simp only at h1
      subst h1
      exact .inl rfl
    · simp only at h1 h0
      subst h1
      cases o with
      | ok v => exact .inr (.inl ⟨by simp only [h0], h2⟩)
      | _ => exact .inr (.inl ⟨rfl, h2⟩)
    · simp only at h2
      subst h2
      refine .inr (.inr ⟨?_, e, rfl, h3, h4⟩)
      cases o <;> exact h1

theorem reserve (hc : c.Fair) {n : Nat} : Duo (ε := ε) c (Dec.reserve n) (Dec.reserve n) where
  far := fun _ h => hc.reserveFar h
  lit := fun _ _ h => by cases h
  rel := fun _ _ h => .inr (.inl ⟨rfl, hc.reserve h⟩)

/-- The step budget of a loop is the weight of the reader. -/
theorem budget (hc : c.Fair) {d : Nat → Dec R ε α} {d' : Nat → Dec S ε α}
    (h : ∀ n, Duo c (d n) (d' n)) :
    Duo c (fun r => d (Read.weight r + 1) r) (fun s => d' (Read.weight s + 1) s) where
  far := fun r => (h _).far r
  lit := fun r => (h _).lit r
  rel := fun r s hr => by
    have := (h (Read.weight r + 1)).rel r s hr
    rw [← hc.weight hr]
    exact this

end Duo

/-! ### The loops of `read_exact` and `read_to_end` -/

theorem exactLoop_far (hc : c.Fair) : ∀ f n acc r, c.Beyond r → c.Beyond (readExactLoop f n acc r).2
  | 0, _, _, _, h => h
  | f + 1, n, acc, r, h => by
    simp only [readExactLoop]
    by_cases h0 : n = 0
    · rw [if_pos h0]; exact h
    · rw [if_neg h0]
      have h1 := hc.far (n := n) h (by omega)
      generalize Read.read n r = o at h1
      obtain ⟨o, r1⟩ := o
      match o, h1 with
      | .ok [], h1 => exact h1
      | .ok (b :: d), h1 => exact exactLoop_far hc f _ _ _ h1
      | .error .interrupted, h1 => exact exactLoop_far hc f _ _ _ h1
      | .error .unexpectedEof, h1 => exact h1
      | .error (.other x), h1 => exact h1

/-- After a call of `read` that has gone beyond. -/
theorem exactLoop_after (hc : c.Fair) {f n : Nat} {acc : List UInt8} {r : R} (hn : n ≠ 0)
    (h1 : c.Beyond (Read.read n r).2) : c.Beyond (readExactLoop (f + 1) n acc r).2 := by
  simp only [readExactLoop]
  rw [if_neg hn]
  generalize Read.read n r = o at h1
  obtain ⟨o, r1⟩ := o
  match o, h1 with
  | .ok [], h1 => exact h1
  | .ok (b :: d), h1 => exact exactLoop_far hc f _ _ _ h1
  | .error .interrupted, h1 => exact exactLoop_far hc f _ _ _ h1
  | .error .unexpectedEof, h1 => exact h1
  | .error (.other x), h1 => exact h1

theorem exactLoop_stop {f n : Nat} {acc : List UInt8} {s s' : S} {x : IoError} (hn : n ≠ 0)
    (hx : x ≠ .interrupted) (h : Read.read n s = (.error x, s')) :
    readExactLoop (f + 1) n acc s = (.err x, s') := by
  simp only [readExactLoop]
  rw [if_neg hn, h]
  cases x with
  | interrupted => exact absurd rfl hx
  | _ => rfl

theorem exactLoop_rel (hc : c.Fair) : ∀ f n acc r s, c.Rel r s →
    Meets c (readExactLoop f n acc r) (readExactLoop f n acc s)
  | 0, _, _, _, _, _ => .inl rfl
  | f + 1, n, acc, r, s, h => by
    by_cases h0 : n = 0
    · simp only [readExactLoop]
      rw [if_pos h0, if_pos h0]
      exact .inr (.inl ⟨rfl, h⟩)
    · rcases hc.step (n := n) h (by omega) with ⟨h1, h2⟩ | ⟨h1, h2, h3⟩ | ⟨h1, ⟨b, d, h2, h3⟩, h4⟩
      · simp only [readExactLoop]
        rw [if_neg h0, if_neg h0]
        generalize Read.read n r = o at h1 h2
        generalize Read.read n s = o' at h1 h2
        obtain ⟨o, r1⟩ := o
        obtain ⟨o', s1⟩ := o'
        simp only at h1
        subst h1
        match o, h2 with
        | .ok [], h2 => exact .inr (.inl ⟨rfl, h2⟩)
        | .ok (b :: d), h2 => exact exactLoop_rel hc f _ _ _ _ h2
        | .error .interrupted, h2 => exact exactLoop_rel hc f _ _ _ _ h2
        | .error .unexpectedEof, h2 => exact .inr (.inl ⟨rfl, h2⟩)
        | .error (.other x), h2 => exact .inr (.inl ⟨rfl, h2⟩)
      · rw [exactLoop_stop (s := s) (s' := (Read.read n s).2) h0 hc.int (by rw [← h2])]
        exact .inr (.inr ⟨exactLoop_after hc h0 h1, _, rfl, .inl rfl, h3⟩)
      · have h5 : readExactLoop (f + 1) n acc s =
            readExactLoop f (n - (b :: d).length) (acc ++ b :: d) (Read.read n s).2 := by
          simp only [readExactLoop]
          rw [if_neg h0]
          generalize Read.read n s = o' at h2
          obtain ⟨o', s1⟩ := o'
          simp only at h2
          subst h2
          rfl
        cases f with
        | zero =>
          rw [h5]
          exact .inl rfl
        | succ f =>
          have h6 := hc.cut (n := n - (b :: d).length) h4 (by omega)
          rw [h5, exactLoop_stop (s' := (Read.read (n - (b :: d).length) (Read.read n s).2).2) (by omega) hc.int
            (by rw [← h6.1])]
          exact .inr (.inr ⟨exactLoop_after hc h0 h1, _, rfl, .inl rfl, h6.2⟩)

theorem endLoop_far (hc : c.Fair) : ∀ f acc r, c.Beyond r → c.Beyond (readToEndLoop f acc r).2
  | 0, _, _, h => h
  | f + 1, acc, r, h => by
    simp only [readToEndLoop]
    have h1 := hc.far (n := Read.room r + 1) h (by omega)
    generalize Read.read (Read.room r + 1) r = o at h1
    obtain ⟨o, r1⟩ := o
    match o, h1 with
    | .ok [], h1 => exact h1
    | .ok (b :: d), h1 => exact endLoop_far hc f _ _ h1
    | .error .interrupted, h1 => exact endLoop_far hc f _ _ h1
    | .error .unexpectedEof, h1 => exact h1
    | .error (.other x), h1 => exact h1

theorem endLoop_after (hc : c.Fair) {f : Nat} {acc : List UInt8} {r : R}
    (h1 : c.Beyond (Read.read (Read.room r + 1) r).2) : c.Beyond (readToEndLoop (f + 1) acc r).2 := by
  simp only [readToEndLoop]
  generalize Read.read (Read.room r + 1) r = o at h1
  obtain ⟨o, r1⟩ := o
  match o, h1 with
  | .ok [], h1 => exact h1
  | .ok (b :: d), h1 => exact endLoop_far hc f _ _ h1
  | .error .interrupted, h1 => exact endLoop_far hc f _ _ h1
  | .error .unexpectedEof, h1 => exact h1
  | .error (.other x), h1 => exact h1

theorem endLoop_stop {f : Nat} {acc : List UInt8} {s s' : S} {x : IoError}
    (hx : x ≠ .interrupted) (h : Read.read (Read.room s + 1) s = (.error x, s')) :
    readToEndLoop (f + 1) acc s = (.err x, s') := by
  simp only [readToEndLoop]
  rw [h]
  cases x with
  | interrupted => exact absurd rfl hx
  | _ => rfl

theorem endLoop_rel (hc : c.Fair) : ∀ f acc r s, c.Rel r s →
    Meets c (readToEndLoop f acc r) (readToEndLoop f acc s)
  | 0, _, _, _, _ => .inl rfl
  | f + 1, acc, r, s, h => by
    have hw := hc.room h
    rcases hc.step (n := Read.room r + 1) h (by omega) with ⟨h1, h2⟩ | ⟨h1, h2, h3⟩ | ⟨h1, ⟨b, d, h2, h3⟩, h4⟩
    · simp only [readToEndLoop]
      rw [hw] at h1 h2 ⊢
      generalize Read.read (Read.room s + 1) r = o at h1 h2
      generalize Read.read (Read.room s + 1) s = o' at h1 h2
      obtain ⟨o, r1⟩ := o
      obtain ⟨o', s1⟩ := o'
      simp only at h1
      subst h1
      match o, h2 with
      | .ok [], h2 => exact .inr (.inl ⟨rfl, h2⟩)
      | .ok (b :: d), h2 => exact endLoop_rel hc f _ _ _ h2
      | .error .interrupted, h2 => exact endLoop_rel hc f _ _ _ h2
      | .error .unexpectedEof, h2 => exact .inr (.inl ⟨rfl, h2⟩)
      | .error (.other x), h2 => exact .inr (.inl ⟨rfl, h2⟩)
    · rw [endLoop_stop (s := s) (s' := (Read.read (Read.room r + 1) s).2) hc.int (by rw [← h2, hw])]
      exact .inr (.inr ⟨endLoop_after hc h1, _, rfl, .inl rfl, h3⟩)
    · have h5 : readToEndLoop (f + 1) acc s =
          readToEndLoop f (acc ++ b :: d) (Read.read (Read.room r + 1) s).2 := by
        simp only [readToEndLoop]
        rw [hw] at h2 ⊢
        generalize Read.read (Read.room s + 1) s = o' at h2
        obtain ⟨o', s1⟩ := o'
        simp only at h2
        subst h2
        rfl
      cases f with
      | zero =>
        rw [h5]
        exact .inl rfl
      | succ f =>
        generalize Read.read (Read.room r + 1) s = o at h4 h5
        have h6 := hc.cut (n := Read.room o.2 + 1) h4 (by omega)
        rw [h5, endLoop_stop (s' := (Read.read (Read.room o.2 + 1) o.2).2) hc.int (by rw [← h6.1])]
        exact .inr (.inr ⟨endLoop_after hc h1, _, rfl, .inl rfl, h6.2⟩)

namespace Duo

theorem readExact (hc : c.Fair) {n : Nat} : Duo c (readExact n) (readExact n) :=
  budget hc (d := fun f => readExactLoop f n []) (d' := fun f => readExactLoop f n []) fun _ =>
    { far := fun r h => exactLoop_far hc _ _ _ r h
      lit := fun _ _ _ h => by cases h
      rel := fun r s h => exactLoop_rel hc _ _ _ r s h }

theorem readToEnd (hc : c.Fair) : Duo c readToEnd readToEnd :=
  budget hc (d := fun f => readToEndLoop f []) (d' := fun f => readToEndLoop f []) fun _ =>
    { far := fun r h => endLoop_far hc _ _ r h
      lit := fun _ _ _ h => by cases h
      rel := fun r s h => endLoop_rel hc _ _ r s h }

theorem readByte (hc : c.Fair) : Duo c readByte readByte :=
  bind (readExact hc) fun _ => by split <;> first | exact pure | exact panic

end Duo

/-- One step of a `Duo` proof; what the decoder calls is among the hypotheses. -/
macro "duostep" : tactic => `(tactic| first
  | with_reducible exact Duo.pure
  | with_reducible exact Duo.panic
  | with_reducible exact Duo.fuel
  | with_reducible exact Duo.readByte (by assumption)
  | with_reducible exact Duo.readExact (by assumption)
  | with_reducible assumption
  | ((with_reducible refine Duo.err ?_); rfl)
  | with_reducible refine Duo.mapErr (by with_unfolding_all (exact fun _ => rfl)) (by with_unfolding_all (exact fun _ => rfl)) ?_
  | with_reducible refine Duo.bind ?_ fun _ => ?_
  | with_reducible refine Duo.ite ?_ ?_
  | with_reducible refine Duo.withChain ?_)

macro "duo" : tactic => `(tactic| repeat' (first | duostep | split))

end Wadec
