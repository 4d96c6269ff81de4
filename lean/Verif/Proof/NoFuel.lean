import Verif.Proof.Uses

/-! `decode_module` terminates on every reader whose data and interruptions come to an end (C56): a
rank of the reader's state that goes down with each read of data and each `Interrupted` bounds all
loops. -/

namespace Wadec

variable {R ε ε' α β σ : Type} [Read R] {Good : R → Prop} {rank : R → Nat} {B : Nat}

structure Ranked (Good : R → Prop) (rank : R → Nat) : Prop where
  enough : ∀ {r}, Good r → rank r ≤ Read.weight r
  read : ∀ {n r}, Good r → 0 < n → Good (Read.read n r).2 ∧ rank (Read.read n r).2 ≤ rank r
  shrink : ∀ {n r b bs r'}, Good r → 0 < n → Read.read n r = (.ok (b :: bs), r') → rank r' < rank r
  int : ∀ {n r r'}, Good r → 0 < n → Read.read n r = (.error .interrupted, r') → rank r' < rank r
  reserve : ∀ {n r}, Good r → Good (Read.reserve n r) ∧ rank (Read.reserve n r) ≤ rank r

theorem Ranked.take (h : Ranked Good rank) :
    Ranked (fun t : Take R => Good t.inner) (fun t => rank t.inner) where
  enough := fun g => h.enough g
  read := by
    rintro n ⟨l, i⟩ g hn
    simp only [Read.read, Take.read]
    split
    · exact ⟨g, Nat.le_refl _⟩
    · rename_i hl
      have := h.read (n := min n l) (r := i) g (by omega)
      split <;> rename_i hr <;> rw [hr] at this <;> exact this
  shrink := by
    rintro n ⟨l, i⟩ b bs r' g hn hr
    simp only [Read.read, Take.read] at hr
    split at hr
    · cases hr
    · rename_i hl
      have hm : 0 < min n l := by omega
      split at hr <;> rename_i hi <;> cases hr
      exact h.shrink g hm hi
  int := by
    rintro n ⟨l, i⟩ r' g hn hr
    simp only [Read.read, Take.read] at hr
    split at hr
    · cases hr
    · rename_i hl
      have hm : 0 < min n l := by omega
      split at hr <;> rename_i hi <;> cases hr
      exact h.int g hm hi
  reserve := fun g => h.reserve g

theorem Ranked.chain (h : Ranked Good rank) :
    Ranked (fun c : Chain R => Good c.inner) (fun c => c.first.length + rank c.inner) where
  enough := fun g => by
    have := h.enough g
    simp only [Read.weight]
    omega
  read := by
    rintro n ⟨l, i⟩ g hn
    simp only [Read.read, Chain.read]
    cases l with
    | nil =>
      have := h.read (n := n) (r := i) g hn
      exact ⟨this.1, by simpa using this.2⟩
    | cons b bs => exact ⟨g, by simp⟩
  shrink := by
    rintro n ⟨l, i⟩ b bs r' g hn hr
    simp only [Read.read, Chain.read] at hr
    cases l with
    | nil =>
      generalize hi : Read.read n i = o at hr
      obtain ⟨o1, i'⟩ := o
      cases hr
      have := h.shrink g hn hi
      simp; exact this
    | cons c cs =>
      simp only [Prod.mk.injEq] at hr
      rw [← hr.2]
      simp
      omega
  int := by
    rintro n ⟨l, i⟩ r' g hn hr
    simp only [Read.read, Chain.read] at hr
    cases l with
    | nil =>
      generalize hi : Read.read n i = o at hr
      obtain ⟨o1, i'⟩ := o
      cases hr
      have := h.int g hn hi
      simp; exact this
    | cons c cs => cases hr
  reserve := fun g => by
    rename_i n c
    have := h.reserve (n := n) g
    refine ⟨this.1, ?_⟩
    simp only [Read.reserve] at this ⊢
    have := this.2
    omega

/-- What a decoder does keeps the reader good, and never raises its rank. -/
theorem Uses.kept (hr : Ranked Good rank) {d : Dec R ε α} (hd : Uses d) {r : R} (g : Good r) :
    Good (d r).2 ∧ rank (d r).2 ≤ rank r :=
  hd (fun a b => Good a → Good b ∧ rank b ≤ rank a) (fun _ g => ⟨g, Nat.le_refl _⟩)
    (fun _ _ _ h1 h2 g => ⟨(h2 (h1 g).1).1, Nat.le_trans (h2 (h1 g).1).2 (h1 g).2⟩)
    (fun _ _ hn g => hr.read g hn) (fun _ _ g => hr.reserve g) r g

/-- From good readers of rank below `B`, `d` stays within its step budget. -/
def NF (Good : R → Prop) (rank : R → Nat) (B : Nat) (d : Dec R ε α) : Prop :=
  Uses d ∧ ∀ r, Good r → rank r < B → (d r).1 ≠ .fuel

/-- `d` takes at least one byte if it succeeds. -/
def Eats (Good : R → Prop) (rank : R → Nat) (d : Dec R ε α) : Prop :=
  ∀ r v r', Good r → d r = (.ok v, r') → rank r' < rank r

namespace NF

theorem mono {d : Dec R ε α} (h : NF Good rank B d) {B' : Nat} (hB : B' ≤ B) : NF Good rank B' d :=
  ⟨h.1, fun r g hr => h.2 r g (by omega)⟩

theorem pure {v : α} : NF (ε := ε) Good rank B (Pure.pure v) :=
  ⟨Quiet.pure.uses, fun _ _ _ h => by cases h⟩
theorem err {e : ε} : NF (α := α) Good rank B (Dec.err e) :=
  ⟨Quiet.err.uses, fun _ _ _ h => by cases h⟩
theorem panic : NF (ε := ε) (α := α) Good rank B Dec.panic :=
  ⟨Quiet.panic.uses, fun _ _ _ h => by cases h⟩

theorem zero {d : Dec R ε α} (h : Uses d) : NF Good rank 0 d :=
  ⟨h, fun _ _ h => absurd h (by omega)⟩

theorem bind (hr : Ranked Good rank) {d : Dec R ε α} {f : α → Dec R ε β} (hd : NF Good rank B d)
    (hf : ∀ v, NF Good rank B (f v)) : NF Good rank B (d >>= f) := by
  refine ⟨hd.1.bind fun v => (hf v).1, fun r g hb => ?_⟩
  have h1 := hd.2 r g hb
  have h2 := hd.1.kept hr g
  simp only [Bind.bind, Dec.bind]
  generalize d r = o at h1 h2
  obtain ⟨o1, r1⟩ := o
  cases o1 with
  | ok v => exact (hf v).2 r1 h2.1 (by have := h2.2; simp only at this; omega)
  | fuel => exact absurd rfl h1
  | _ => simp

theorem bindEats (hr : Ranked Good rank) {d : Dec R ε α} {f : α → Dec R ε β}
    (hd : NF Good rank (B + 1) d) (he : Eats Good rank d) (hf : ∀ v, NF Good rank B (f v)) :
    NF Good rank (B + 1) (d >>= f) := by
  refine ⟨hd.1.bind fun v => (hf v).1, fun r g hb => ?_⟩
  have h1 := hd.2 r g hb
  have h2 := hd.1.kept hr g
  have h3 := he r
  simp only [Bind.bind, Dec.bind]
  generalize d r = o at h1 h2 h3
  obtain ⟨o1, r1⟩ := o
  cases o1 with
  | ok v => exact (hf v).2 r1 h2.1 (by have := h3 v r1 g rfl; omega)
  | fuel => exact absurd rfl h1
  | _ => simp

theorem mapErr {d : Dec R ε α} {f : ε → ε'} (hd : NF Good rank B d) : NF Good rank B (d.mapErr f) := by
  refine ⟨hd.1.mapErr, fun r g hb => ?_⟩
  have h1 := hd.2 r g hb
  simp only [Dec.mapErr]
  generalize d r = o at h1
  obtain ⟨o1, r1⟩ := o
  cases o1 with
  | fuel => exact absurd rfl h1
  | _ => simp

theorem ite {c : Prop} [Decidable c] {a b : Dec R ε α} (ha : NF Good rank B a) (hb : NF Good rank B b) :
    NF Good rank B (if c then a else b) := by
  split <;> assumption

theorem orElse (hr : Ranked Good rank) {d : Dec R ε α} {f : α → β} {g : Dec R ε' β}
    (hq : Uses (d.orElseDiscard f g)) (hd : NF Good rank B d) (hg : NF Good rank B g) :
    NF Good rank B (d.orElseDiscard f g) := by
  refine ⟨hq, fun r gd hb => ?_⟩
  have h1 := hd.2 r gd hb
  have h2 := hd.1.kept hr gd
  simp only [Dec.orElseDiscard]
  generalize d r = o at h1 h2
  obtain ⟨o1, r1⟩ := o
  cases o1 with
  | err v => exact hg.2 r1 h2.1 (by have := h2.2; simp only at this; omega)
  | fuel => exact absurd rfl h1
  | _ => simp

theorem withChain {b : UInt8} {d : Dec (Chain R) ε α}
    (hd : NF (fun c : Chain R => Good c.inner) (fun c => c.first.length + rank c.inner) (B + 1) d) :
    NF Good rank B (Dec.withChain b d) := by
  refine ⟨hd.1.withChain, fun r g hb => ?_⟩
  exact hd.2 ⟨[b], r⟩ g (by simp; omega)

theorem withTake {n : Nat} {d : Dec (Take R) ε α}
    (hd : NF (fun t : Take R => Good t.inner) (fun t => rank t.inner) B d) :
    NF Good rank B (Dec.withTake n d) := by
  refine ⟨hd.1.withTake, fun r g hb => ?_⟩
  have h1 := hd.2 ⟨n, r⟩ g hb
  simp only [Dec.withTake]
  generalize d ⟨n, r⟩ = o at h1
  obtain ⟨o1, r1⟩ := o
  cases o1 with
  | fuel => exact absurd rfl h1
  | _ => simp

theorem reserve {n : Nat} : NF (ε := ε) Good rank B (Dec.reserve n) :=
  ⟨Uses.reserve, fun _ _ _ h => by cases h⟩

theorem budget (hr : Ranked Good rank) {d : Nat → Dec R ε α} (h : ∀ n, NF Good rank n (d n)) :
    NF Good rank B (fun r => d (Read.weight r + 1) r) :=
  ⟨fun I h1 h2 h3 h4 r => (h _).1 I h1 h2 h3 h4 r,
    fun r g _ => (h _).2 r g (by have := hr.enough g; omega)⟩

theorem readExactLoop (hr : Ranked Good rank) :
    ∀ f n acc, NF Good rank f (readExactLoop f n acc)
  | 0, _, _ => zero (Quiet.uses (Quiet.readExactLoop _ _ _))
  | f + 1, n, acc => by
    refine ⟨Quiet.uses (Quiet.readExactLoop _ _ _), fun r g hb => ?_⟩
    simp only [Wadec.readExactLoop]
    split
    · simp
    · rename_i h0
      have h0 : 0 < n := by omega
      have hk := hr.read (n := n) g h0
      split
      · simp
      · rename_i b bs r1 h1
        rw [h1] at hk
        exact (readExactLoop hr f _ _).2 _ hk.1 (by have := hr.shrink g h0 h1; omega)
      · rename_i r1 h1
        rw [h1] at hk
        exact (readExactLoop hr f _ _).2 _ hk.1 (by have := hr.int g h0 h1; omega)
      · simp

theorem readExact (hr : Ranked Good rank) {n : Nat} : NF Good rank B (readExact n) :=
  budget hr (d := fun f => Wadec.readExactLoop f n []) fun f => readExactLoop hr f _ _

theorem readToEndLoop (hr : Ranked Good rank) : ∀ f acc, NF Good rank f (readToEndLoop f acc)
  | 0, _ => zero (Quiet.uses (Quiet.readToEndLoop _ _))
  | f + 1, acc => by
    refine ⟨Quiet.uses (Quiet.readToEndLoop _ _), fun r g hb => ?_⟩
    have hk := hr.read (n := Read.room r + 1) g (by omega)
    simp only [Wadec.readToEndLoop]
    split
    · simp
    · rename_i b bs r1 h1
      rw [h1] at hk
      exact (readToEndLoop hr f _).2 _ hk.1 (by have := hr.shrink g (by omega) h1; omega)
    · rename_i r1 h1
      rw [h1] at hk
      exact (readToEndLoop hr f _).2 _ hk.1 (by have := hr.int g (by omega) h1; omega)
    · simp

theorem readToEnd (hr : Ranked Good rank) : NF Good rank B readToEnd :=
  budget hr (d := fun f => Wadec.readToEndLoop f []) fun f => readToEndLoop hr f _

theorem readByte (hr : Ranked Good rank) : NF Good rank B readByte :=
  bind hr (readExact hr) fun _ => by split <;> first | exact pure | exact panic

end NF

namespace Eats

theorem bind (hr : Ranked Good rank) {d : Dec R ε α} {f : α → Dec R ε β} (hd : Eats Good rank d)
    (hu : Uses d) (hf : ∀ v, Uses (f v)) : Eats Good rank (d >>= f) := by
  intro r v r' g h
  have h2 := hu.kept hr g
  have h3 := hd r
  simp only [Bind.bind, Dec.bind] at h
  generalize d r = o at h h2 h3
  obtain ⟨o1, r1⟩ := o
  cases o1 with
  | ok x =>
    have h4 := (hf x).kept hr h2.1
    have h5 := h3 x r1 g rfl
    simp only at h h4
    rw [h] at h4
    have := h4.2
    simp only at this
    omega
  | _ => cases h

omit [Read R] in
theorem mapErr {d : Dec R ε α} {f : ε → ε'} (hd : Eats Good rank d) : Eats Good rank (d.mapErr f) := by
  intro r v r' g h
  have h3 := hd r
  simp only [Dec.mapErr] at h
  generalize d r = o at h h3
  obtain ⟨o1, r1⟩ := o
  cases o1 with
  | ok x => cases h; exact h3 _ _ g rfl
  | _ => cases h

theorem readExactLoop (hr : Ranked Good rank) : ∀ f n acc, 0 < n →
    Eats Good rank (readExactLoop f n acc)
  | 0, _, _, _ => fun _ _ _ _ h => by cases h
  | f + 1, n, acc, hn => by
    intro r v r' g h
    have hk := hr.read (n := n) g hn
    simp only [Wadec.readExactLoop] at h
    rw [if_neg (by omega)] at h
    split at h
    · cases h
    · rename_i b bs r1 h1
      rw [h1] at hk
      have h2 := hr.shrink g hn h1
      have h3 := (Quiet.uses (Quiet.readExactLoop f (n - (b :: bs).length) (acc ++ b :: bs))).kept hr hk.1
      simp only at h3
      rw [h] at h3
      have := h3.2
      simp only at this
      omega
    · rename_i r1 h1
      rw [h1] at hk
      have h2 := hr.int g hn h1
      have h3 := (Quiet.uses (Quiet.readExactLoop f n acc)).kept hr hk.1
      simp only at h3
      rw [h] at h3
      have := h3.2
      simp only at this
      omega
    · cases h

theorem readExact (hr : Ranked Good rank) {n : Nat} (hn : 0 < n) : Eats Good rank (readExact n) :=
  fun r v r' g h => readExactLoop hr _ n [] hn r v r' g h

theorem readByte (hr : Ranked Good rank) : Eats Good rank readByte :=
  bind hr (readExact hr (by omega)) (NF.readExact (B := 0) hr).1 fun _ => by
    split
    · exact Quiet.pure.uses
    · exact Quiet.panic.uses

end Eats

/-- One step of an `NF` proof; what the decoder calls is among the hypotheses. -/
macro "nfstep" : tactic => `(tactic| with_reducible first
  | exact NF.pure | exact NF.err | exact NF.panic
  | exact NF.readByte (by assumption) | exact NF.readExact (by assumption)
  | assumption
  | refine NF.mapErr ?_ | refine NF.bind (by assumption) ?_ fun _ => ?_ | refine NF.ite ?_ ?_
  | refine NF.withChain ?_)

macro "nofuel" : tactic => `(tactic| repeat' (first | nfstep | split))

end Wadec
