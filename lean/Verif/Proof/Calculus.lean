import Verif.Proof.Reader
import Verif.Model.Errors
import Verif.Spec.Leb

/-! Three small program calculi for decoders.

* `Sound d T`  : whenever `d` succeeds with `v`, it has consumed some bytes `bs` with `T bs v`.
* `Runs d bs v`: on every input that starts with `bs`, `d` succeeds with `v` and consumes
  exactly `bs`.
* `G k L d d'` : `d` and `d'` are the same decoder on two (possibly different) readers; they
  succeed alike, consuming the same at least `k` bytes, never panic nor run out of budget (as long
  as at most `L` bytes are available), and an error is either determined by the bytes already
  read, or is an I/O error carrying the reader's end condition, or is "murky" (see `ErrInfo`). -/

namespace Wadec

open LawfulRead Spec

variable {R S ε ε' α β : Type}

/-! ### Soundness -/

def Sound [LawfulRead R] (d : Dec R ε α) (T : List UInt8 → α → Prop) : Prop :=
  ∀ r v r', d r = (.ok v, r') → ∃ bs, Adv bs r r' ∧ T bs v

section sound
variable [LawfulRead R] {T : List UInt8 → α → Prop}

theorem Sound.pure {v : α} (h : T [] v) : Sound (R := R) (ε := ε) (Pure.pure v) T := by
  intro r v' r' heq
  cases heq
  exact ⟨[], adv_nil r, h⟩

theorem Sound.err {e : ε} : Sound (R := R) (Dec.err e) T := by
  intro r v r' heq; cases heq

theorem Sound.panic : Sound (R := R) (ε := ε) (Dec.panic) T := by
  intro r v r' heq; cases heq

theorem Sound.outOfFuel : Sound (R := R) (ε := ε) (Dec.outOfFuel) T := by
  intro r v r' heq; cases heq

theorem Sound.bind {d : Dec R ε α} {f : α → Dec R ε β} {P : List UInt8 → α → Prop}
    {T : List UInt8 → β → Prop} (hd : Sound d P)
    (hf : ∀ x b1, P b1 x → Sound (f x) (fun b2 v => T (b1 ++ b2) v)) : Sound (d >>= f) T := by
  intro r v r' heq
  simp only [Bind.bind, Dec.bind] at heq
  split at heq <;> try cases heq
  rename_i a r1 h1
  obtain ⟨b1, ha1, hp⟩ := hd _ _ _ h1
  obtain ⟨b2, ha2, ht⟩ := hf _ _ hp _ _ _ heq
  exact ⟨b1 ++ b2, adv_trans ha1 ha2, ht⟩

theorem Sound.mono {d : Dec R ε α} {P : List UInt8 → α → Prop} (hd : Sound d P)
    (h : ∀ bs v, P bs v → T bs v) : Sound d T := by
  intro r v r' heq
  obtain ⟨bs, ha, hp⟩ := hd _ _ _ heq
  exact ⟨bs, ha, h _ _ hp⟩

theorem Sound.mapErr {d : Dec R ε α} {f : ε → ε'} (hd : Sound d T) : Sound (d.mapErr f) T := by
  intro r v r' heq
  simp only [Dec.mapErr] at heq
  split at heq <;> cases heq
  rename_i h1
  exact hd _ _ _ h1

theorem Sound.ite {c : Prop} [Decidable c] {a b : Dec R ε α} (h1 : c → Sound a T)
    (h2 : ¬c → Sound b T) : Sound (if c then a else b) T := by
  split <;> simp_all

theorem Sound.reserve {n : Nat} : Sound (R := R) (ε := ε) (Dec.reserve n) (fun bs _ => bs = []) := by
  intro r v r' heq
  cases heq
  exact ⟨[], adv_reserve n r, rfl⟩

theorem Sound.withChainAt {b : UInt8} {d : Dec (Chain R) ε α}
    (hd : ∀ r rest v r', avail r = b :: rest → d r = (.ok v, r') → ∃ bs, Adv bs r r' ∧ T bs v)
    (hne : ∀ v, ¬ T [] v) : Sound (Dec.withChain b d) (fun b2 v => T (b :: b2) v) := by
  intro r v r' heq
  simp only [Dec.withChain] at heq
  rcases hh : d { first := [b], inner := r } with ⟨res, c⟩
  rw [hh] at heq
  cases heq
  obtain ⟨bs, ⟨b1, b2, h1, h2, h3, h4⟩, ht⟩ := hd _ (avail r) _ _ (by simp [avail]) hh
  simp only at h2 h3
  match b1, h2 with
  | [], h2 =>
    have : b2 = [] := by
      by_cases hb : b2 = []
      · exact hb
      · have := h4 hb; rw [this] at h2; simp at h2
    subst this
    simp at h1; subst h1
    exact absurd ht (hne _)
  | [x], h2 =>
    simp at h2
    subst h1
    exact ⟨b2, h3, by simpa [h2.1] using ht⟩
  | _ :: _ :: _, h2 => simp at h2

theorem Sound.withChain {b : UInt8} {d : Dec (Chain R) ε α} (hd : Sound d T)
    (hne : ∀ v, ¬ T [] v) : Sound (Dec.withChain b d) (fun b2 v => T (b :: b2) v) :=
  Sound.withChainAt (fun r _ v r' _ h => hd r v r' h) hne

theorem Sound.withTake {n : Nat} {d : Dec (Take R) ε α} (hd : Sound d T) :
    Sound (Dec.withTake n d) (fun bs v => T bs v.1 ∧ n = bs.length + v.2) := by
  intro r v r' heq
  simp only [Dec.withTake] at heq
  split at heq <;> cases heq
  rename_i a t h1
  obtain ⟨bs, ⟨h2, h3⟩, ht⟩ := hd _ _ _ h1
  exact ⟨bs, h3, ht, h2⟩

theorem Sound.readExact {n : Nat} :
    Sound (R := R) (Wadec.readExact n) (fun bs v => bs = v ∧ v.length = n) := by
  intro r v r' heq
  by_cases h : (avail r).length < n
  · obtain ⟨r'', h'⟩ := readExact_err h
    rw [h'] at heq; cases heq
  · obtain ⟨r'', h1, h2⟩ := readExact_ok (r := r) (bs := (avail r).take n) (rest := (avail r).drop n)
      (by simp)
    rw [List.length_take, Nat.min_eq_left (by omega)] at h1
    rw [h1] at heq
    cases heq
    exact ⟨_, h2, rfl, by simp; omega⟩

theorem Sound.readByte : Sound (R := R) Wadec.readByte (fun bs v => bs = [v]) := by
  unfold Wadec.readByte
  refine Sound.bind Sound.readExact ?_
  rintro x b1 ⟨rfl, hl⟩
  match b1, hl with
  | [b], _ => exact Sound.pure rfl

end sound

/-! ### Completeness -/

def Runs [LawfulRead R] (d : Dec R ε α) (bs : List UInt8) (v : α) : Prop :=
  ∀ r rest, avail r = bs ++ rest → ∃ r', d r = (.ok v, r') ∧ Adv bs r r'

section runs
variable [LawfulRead R]

theorem Runs.pure {v : α} : Runs (R := R) (ε := ε) (Pure.pure v) [] v := by
  intro r rest h
  exact ⟨r, rfl, adv_nil r⟩

theorem Runs.bind {d : Dec R ε α} {f : α → Dec R ε β} {b1 b2 : List UInt8} {x : α} {v : β}
    (hd : Runs d b1 x) (hf : Runs (f x) b2 v) : Runs (d >>= f) (b1 ++ b2) v := by
  intro r rest h
  obtain ⟨r1, h1, ha1⟩ := hd r (b2 ++ rest) (by rw [h, List.append_assoc])
  have := adv_avail ha1
  rw [h, List.append_assoc, List.append_cancel_left_eq] at this
  obtain ⟨r2, h2, ha2⟩ := hf r1 rest this.symm
  refine ⟨r2, ?_, adv_trans ha1 ha2⟩
  simp only [Bind.bind, Dec.bind, h1, h2]

theorem Runs.bind_nil {d : Dec R ε α} {f : α → Dec R ε β} {bs : List UInt8} {x : α} {v : β}
    (hd : Runs d [] x) (hf : Runs (f x) bs v) : Runs (d >>= f) bs v := Runs.bind hd hf

theorem Runs.bind_pure {d : Dec R ε α} {f : α → β} {bs : List UInt8} {x : α}
    (hd : Runs d bs x) : Runs (d >>= fun x => Pure.pure (f x)) bs (f x) := by
  simpa using Runs.bind hd (f := fun x => Pure.pure (f x)) (b2 := []) Runs.pure

theorem Runs.mapErr {d : Dec R ε α} {f : ε → ε'} {bs : List UInt8} {v : α} (hd : Runs d bs v) :
    Runs (d.mapErr f) bs v := by
  intro r rest h
  obtain ⟨r1, h1, ha1⟩ := hd r rest h
  exact ⟨r1, by simp only [Dec.mapErr, h1], ha1⟩

theorem Runs.ite_pos {c : Prop} [Decidable c] {a b : Dec R ε α} {bs : List UInt8} {v : α} (h : c)
    (hd : Runs a bs v) : Runs (if c then a else b) bs v := by
  rw [if_pos h]; exact hd

theorem Runs.ite_neg {c : Prop} [Decidable c] {a b : Dec R ε α} {bs : List UInt8} {v : α} (h : ¬c)
    (hd : Runs b bs v) : Runs (if c then a else b) bs v := by
  rw [if_neg h]; exact hd

theorem Runs.reserve {n : Nat} : Runs (R := R) (ε := ε) (Dec.reserve n) [] () := by
  intro r rest h
  exact ⟨_, rfl, adv_reserve n r⟩

theorem Runs.withChain {b : UInt8} {d : Dec (Chain R) ε α} {bs : List UInt8} {v : α}
    (hd : Runs d (b :: bs) v) : Runs (Dec.withChain b d) bs v := by
  intro r rest h
  obtain ⟨c, h1, b1, b2, h2, h3, h4, h5⟩ := hd { first := [b], inner := r } rest
    (by simp [avail, h])
  refine ⟨c.inner, by simp only [Dec.withChain, h1], ?_⟩
  simp only at h3 h4
  match b1, h3 with
  | [], h3 =>
    simp at h2 h3
    have := h5 (by rw [← h2]; simp)
    rw [this] at h3; cases h3
  | [x], h3 =>
    simp at h2
    rw [h2.2]; exact h4
  | _ :: _ :: _, h3 => simp at h3

theorem Runs.withTake {d : Dec (Take R) ε α} {n : Nat} {bs : List UInt8} {v : α}
    (hn : bs.length ≤ n) (hd : Runs d bs v) : Runs (Dec.withTake n d) bs (v, n - bs.length) := by
  intro r rest h
  obtain ⟨t, h1, h2, h3⟩ := hd { limit := n, inner := r } (rest.take (n - bs.length))
    (by simp [avail, h, List.take_append, List.take_of_length_le hn])
  simp only at h2
  have : t.limit = n - bs.length := by omega
  exact ⟨t.inner, by simp only [Dec.withTake, h1, this], h3⟩

theorem Runs.readExact {bs : List UInt8} {n : Nat} (h : bs.length = n) :
    Runs (R := R) (Wadec.readExact n) bs bs := by
  intro r rest ha
  subst h
  exact readExact_ok ha

theorem Runs.readByte {b : UInt8} : Runs (R := R) Wadec.readByte [b] b := by
  unfold Wadec.readByte
  exact Runs.bind (b1 := [b]) (b2 := []) (Runs.readExact rfl) Runs.pure

end runs

/-! ### Independence, totality, stability of errors -/

theorem _root_.Wadec.Spec.Dangling.append {bs : Bytes} (h : Dangling bs) (pre : Bytes) :
    Dangling (pre ++ bs) := by
  obtain ⟨p, b, cs, rfl, hb, hc⟩ := h
  exact ⟨pre ++ p, b, cs, by simp, hb, hc⟩

/-- The relation between the outcomes of the same decoder on two readers, where the second one
delivers at least the bytes the first one does; `D` holds if the error is a murky one that the
second reader may avoid. -/
def GOutD [LawfulRead R] [LawfulRead S] [ErrInfo ε] (D : Prop) (k : Nat) (d' : Dec S ε α) (r : R)
    (s : S) : Res ε α × R → Prop
  | (.ok v, r') => ∃ bs s', k ≤ bs.length ∧ d' s = (.ok v, s') ∧ Adv bs r r' ∧ Adv bs s s'
  | (.err e, _) =>
      (∃ s', d' s = (.err e, s')) ∨
      (∃ mk : IoError → ε, (∀ x, ErrInfo.root (mk x) = some x) ∧ e = mk (fin r).toErr ∧
        (avail s = avail r → ∃ s', d' s = (.err (mk (fin s).toErr), s'))) ∨
      (ErrInfo.murky e = true ∧ D ∧ (avail s = avail r → ∃ s', d' s = (.err e, s')))
  | (.panic, _) => False
  | (.fuel, _) => False

/-- The outcomes of the same decoder on two readers, where the second one delivers at least the
bytes the first one does. -/
abbrev GOut [LawfulRead R] [LawfulRead S] [ErrInfo ε] (k : Nat) (d' : Dec S ε α) (r : R) (s : S) :
    Res ε α × R → Prop := GOutD (Dangling (avail r)) k d' r s

def G [LawfulRead R] [LawfulRead S] [ErrInfo ε] (k L : Nat) (d : Dec R ε α) (d' : Dec S ε α) :
    Prop :=
  ∀ r s, (avail r).length ≤ L → avail r <+: avail s → GOut k d' r s (d r)

section good
variable [LawfulRead R] [LawfulRead S] [ErrInfo ε] [ErrInfo ε'] {L k j : Nat}

theorem G.pure {v : α} : G (ε := ε) 0 L (Pure.pure v : Dec R ε α) (Pure.pure v : Dec S ε α) := by
  intro r s hL hp
  exact ⟨[], s, by simp, rfl, adv_nil r, adv_nil s⟩

theorem G.err {e : ε} : G k L (Dec.err e : Dec R ε α) (Dec.err e : Dec S ε α) := by
  intro r s hL hp
  exact Or.inl ⟨s, rfl⟩

theorem G.mono {d : Dec R ε α} {d' : Dec S ε α} (h : G k L d d') (hj : j ≤ k) : G j L d d' := by
  intro r s hL hp
  have := h r s hL hp
  revert this
  rcases d r with ⟨res, r'⟩
  cases res with
  | ok v => rintro ⟨bs, s', h1, h2⟩; exact ⟨bs, s', by omega, h2⟩
  | err e => exact id
  | panic => exact id
  | fuel => exact id

theorem G.anti {d : Dec R ε α} {d' : Dec S ε α} {L' : Nat} (h : G k L' d d') (hj : L ≤ L') :
    G k L d d' := by
  intro r s hL hp
  exact h r s (by omega) hp

/-- What is known about the result of a decoder, whatever it consumed. -/
def Post (d : Dec R ε α) (P : α → Prop) : Prop := ∀ r v r', d r = (.ok v, r') → P v

theorem Sound.post {d : Dec R ε α} {T : List UInt8 → α → Prop} (h : Sound d T) :
    Post d (fun v => ∃ bs, T bs v) := by
  intro r v r' heq
  obtain ⟨bs, _, ht⟩ := h r v r' heq
  exact ⟨bs, ht⟩

/-- Sequencing; the continuation is only reached with at least `k` bytes available and with a
result that `d` can have. -/
theorem G.bindP {d : Dec R ε α} {d' : Dec S ε α} {f : α → Dec R ε β} {f' : α → Dec S ε β} {m : Nat}
    {P : α → Prop} (hP : Post d P)
    (hd : G k L d d') (hf : k ≤ L → ∀ x, P x → G j (L - k) (f x) (f' x)) (hm : m ≤ k + j) :
    G m L (d >>= f) (d' >>= f') := by
  intro r s hL hp
  have h1 := hd r s hL hp
  simp only [Bind.bind, Dec.bind]
  rcases hdr : d r with ⟨res, r'⟩
  rw [hdr] at h1
  cases res with
  | ok v =>
    obtain ⟨bs, s', hk, hs, ha, ha'⟩ := h1
    simp only
    have hav := adv_avail ha
    have hav' := adv_avail ha'
    have hp' : avail r' <+: avail s' := by
      rw [hav, hav'] at hp
      obtain ⟨t, ht⟩ := hp
      exact ⟨t, by simpa using ht⟩
    have hlen := congrArg List.length hav
    simp only [List.length_append] at hlen
    have h2 := hf (by omega) v (hP _ _ _ hdr) r' s' (by omega) hp'
    rcases hfr : f v r' with ⟨res2, r''⟩
    rw [hfr] at h2
    cases res2 with
    | ok w =>
      obtain ⟨bs2, s'', hj, hs2, ha2, ha2'⟩ := h2
      refine ⟨bs ++ bs2, s'', by simp; omega, ?_, adv_trans ha ha2, adv_trans ha' ha2'⟩
      simp only [Bind.bind, Dec.bind, hs, hs2]
    | err e =>
      have heq : avail s = avail r → avail s' = avail r' := by
        intro h; rw [hav, hav'] at h; simpa using h
      rcases h2 with ⟨s'', h2⟩ | ⟨mk, h2, h3, h4⟩ | ⟨h2, hD, h3⟩
      · exact Or.inl ⟨s'', by simp only [Bind.bind, Dec.bind, hs, h2]⟩
      · refine Or.inr (Or.inl ⟨mk, h2, by rw [h3, adv_fin ha], fun h => ?_⟩)
        obtain ⟨s'', h5⟩ := h4 (heq h)
        exact ⟨s'', by simp only [Bind.bind, Dec.bind, hs, h5, adv_fin ha']⟩
      · refine Or.inr (Or.inr ⟨h2, hav ▸ hD.append bs, fun h => ?_⟩)
        obtain ⟨s'', h5⟩ := h3 (heq h)
        exact ⟨s'', by simp only [Bind.bind, Dec.bind, hs, h5]⟩
    | panic => exact h2
    | fuel => exact h2
  | err e =>
    rcases h1 with ⟨s', h1⟩ | ⟨mk, h1, h2, h3⟩ | ⟨h1, hD, h2⟩
    · exact Or.inl ⟨s', by simp only [Bind.bind, Dec.bind, h1]⟩
    · refine Or.inr (Or.inl ⟨mk, h1, h2, fun h => ?_⟩)
      obtain ⟨s', h4⟩ := h3 h
      exact ⟨s', by simp only [Bind.bind, Dec.bind, h4]⟩
    · refine Or.inr (Or.inr ⟨h1, hD, fun h => ?_⟩)
      obtain ⟨s', h4⟩ := h2 h
      exact ⟨s', by simp only [Bind.bind, Dec.bind, h4]⟩
  | panic => exact h1
  | fuel => exact h1

theorem G.bind {d : Dec R ε α} {d' : Dec S ε α} {f : α → Dec R ε β} {f' : α → Dec S ε β} {m : Nat}
    (hd : G k L d d') (hf : ∀ x, G j (L - k) (f x) (f' x)) (hm : m ≤ k + j) :
    G m L (d >>= f) (d' >>= f') :=
  G.bindP (P := fun _ => True) (fun _ _ _ _ => trivial) hd (fun _ x _ => hf x) hm

/-- `G.bind` where the continuation is only reached with at least `k` bytes available. -/
theorem G.bind' {d : Dec R ε α} {d' : Dec S ε α} {f : α → Dec R ε β} {f' : α → Dec S ε β} {m : Nat}
    (hd : G k L d d') (hf : k ≤ L → ∀ x, G j (L - k) (f x) (f' x)) (hm : m ≤ k + j) :
    G m L (d >>= f) (d' >>= f') :=
  G.bindP (P := fun _ => True) (fun _ _ _ _ => trivial) hd (fun h x _ => hf h x) hm

/-- The common case of `G.bind`, not tracking the minimal consumption. -/
theorem G.bind0 {d : Dec R ε α} {d' : Dec S ε α} {f : α → Dec R ε β} {f' : α → Dec S ε β}
    (hd : G 0 L d d') (hf : ∀ x, G 0 L (f x) (f' x)) : G 0 L (d >>= f) (d' >>= f') :=
  G.bind hd hf (Nat.le_refl _)

theorem G.mapErr {d : Dec R ε α} {d' : Dec S ε α} {f : ε → ε'} (hd : G k L d d')
    (hroot : ∀ e, ErrInfo.root (f e) = ErrInfo.root e)
    (hmurky : ∀ e, ErrInfo.murky e = true → ErrInfo.murky (f e) = true) :
    G k L (d.mapErr f) (d'.mapErr f) := by
  intro r s hL hp
  have h1 := hd r s hL hp
  simp only [Dec.mapErr]
  rcases hdr : d r with ⟨res, r'⟩
  rw [hdr] at h1
  cases res with
  | ok v =>
    obtain ⟨bs, s', hk, hs, ha, ha'⟩ := h1
    exact ⟨bs, s', hk, by simp only [Dec.mapErr, hs], ha, ha'⟩
  | err e =>
    rcases h1 with ⟨s', h1⟩ | ⟨mk, h1, h2, h3⟩ | ⟨h1, hD, h2⟩
    · exact Or.inl ⟨s', by simp only [Dec.mapErr, h1]⟩
    · refine Or.inr (Or.inl ⟨fun x => f (mk x), fun x => by rw [hroot, h1], by rw [h2], fun h => ?_⟩)
      obtain ⟨s', h4⟩ := h3 h
      exact ⟨s', by simp only [Dec.mapErr, h4]⟩
    · refine Or.inr (Or.inr ⟨hmurky _ h1, hD, fun h => ?_⟩)
      obtain ⟨s', h4⟩ := h2 h
      exact ⟨s', by simp only [Dec.mapErr, h4]⟩
  | panic => exact h1
  | fuel => exact h1

theorem G.ite {c : Prop} [Decidable c] {a b : Dec R ε α} {a' b' : Dec S ε α} (h1 : c → G k L a a')
    (h2 : ¬c → G k L b b') : G k L (if c then a else b) (if c then a' else b') := by
  split <;> simp_all

theorem G.reserve {n : Nat} : G 0 L (Dec.reserve n : Dec R ε Unit) (Dec.reserve n : Dec S ε Unit) := by
  intro r s hL hp
  exact ⟨[], _, by simp, rfl, adv_reserve n r, adv_reserve n s⟩

theorem GOut.withChain {b : UInt8} {d : Dec (Chain R) ε α} {d' : Dec (Chain S) ε α} {r : R} {s : S}
    (h1 : GOut k d' { first := [b], inner := r } { first := [b], inner := s }
      (d { first := [b], inner := r })) :
    GOutD (Dangling (b :: avail r)) (k - 1) (Dec.withChain b d') r s (Dec.withChain b d r) := by
  simp only [Dec.withChain]
  rcases hdr : d { first := [b], inner := r } with ⟨res, c⟩
  rw [hdr] at h1
  have hav : avail s = avail r → avail ({ first := [b], inner := s } : Chain S) =
      avail ({ first := [b], inner := r } : Chain R) := by
    intro h; simp [avail, h]
  cases res with
  | ok v =>
    obtain ⟨bs, c', hk, hs, ⟨b1, b2, h1, h2, h3, h4⟩, ⟨b1', b2', h1', h2', h3', h4'⟩⟩ := h1
    simp only at h2 h3 h2' h3'
    have key : ∀ (b1 b2 c : List UInt8), [b] = b1 ++ c → (b2 ≠ [] → c = []) →
        b2 = (b1 ++ b2).drop 1 := by
      intro b1 b2 c h h'
      match b1, h with
      | [], h =>
        by_cases hb : b2 = []
        · simp [hb]
        · rw [h' hb] at h; cases h
      | [x], h => simp
      | _ :: _ :: _, h => simp at h
    have e1 := key _ _ _ h2 h4
    have e2 := key _ _ _ h2' h4'
    rw [← h1'] at e2
    rw [← h1] at e1
    rw [e1] at h3
    rw [e2] at h3'
    exact ⟨bs.drop 1, c'.inner, by simp; omega, by simp only [Dec.withChain, hs], h3, h3'⟩
  | err e =>
    rcases h1 with ⟨s', h1⟩ | ⟨mk, h1, h2, h3⟩ | ⟨h1, hD, h2⟩
    · exact Or.inl ⟨s'.inner, by simp only [Dec.withChain, h1]⟩
    · refine Or.inr (Or.inl ⟨mk, h1, h2, fun h => ?_⟩)
      obtain ⟨s', h4⟩ := h3 (hav h)
      exact ⟨s'.inner, by simp only [Dec.withChain, h4]; rfl⟩
    · refine Or.inr (Or.inr ⟨h1, hD, fun h => ?_⟩)
      obtain ⟨s', h4⟩ := h2 (hav h)
      exact ⟨s'.inner, by simp only [Dec.withChain, h4]⟩
  | panic => exact h1
  | fuel => exact h1

/-- Error types without murky errors. -/
class Clear (ε : Type) [ErrInfo ε] : Prop where
  clear : ∀ e : ε, ErrInfo.murky e = false

theorem GOutD.of_clear [Clear ε] {D D' : Prop} {d' : Dec S ε α} {r : R} {s : S} {o : Res ε α × R}
    (h : GOutD D k d' r s o) : GOutD D' k d' r s o := by
  obtain ⟨res, r'⟩ := o
  cases res with
  | ok v => exact h
  | err e =>
    rcases h with h | h | ⟨h, _⟩
    · exact .inl h
    · exact .inr (.inl h)
    · rw [Clear.clear] at h; cases h
  | panic => exact h
  | fuel => exact h

theorem G.withChain [Clear ε] {b : UInt8} {d : Dec (Chain R) ε α} {d' : Dec (Chain S) ε α}
    (hd : G k (L + 1) d d') : G (k - 1) L (Dec.withChain b d) (Dec.withChain b d') := by
  intro r s hL hp
  exact GOutD.of_clear <| GOut.withChain (hd { first := [b], inner := r } { first := [b], inner := s }
    (by simp [avail]; omega) (by simpa [avail] using hp))

theorem GOut.withTake {n : Nat} {d : Dec (Take R) ε α} {d' : Dec (Take S) ε α} {r : R} {s : S}
    (hp : avail r <+: avail s)
    (h1 : GOut k d' { limit := n, inner := r } { limit := n, inner := s }
      (d { limit := n, inner := r })) :
    GOut k (Dec.withTake n d') r s (Dec.withTake n d r) := by
  simp only [Dec.withTake]
  rcases hdr : d { limit := n, inner := r } with ⟨res, t⟩
  rw [hdr] at h1
  have hav : avail s = avail r → avail ({ limit := n, inner := s } : Take S) =
      avail ({ limit := n, inner := r } : Take R) := by
    intro h; simp [avail, h]
  cases res with
  | ok v =>
    obtain ⟨bs, t', hk, hs, ⟨h1, h2⟩, ⟨h1', h2'⟩⟩ := h1
    simp only at h1 h1'
    have : t'.limit = t.limit := by omega
    exact ⟨bs, t'.inner, hk, by simp only [Dec.withTake, hs, this], h2, h2'⟩
  | err e =>
    rcases h1 with ⟨s', h1⟩ | ⟨mk, h1, h2, h3⟩ | ⟨h1, hD, h2⟩
    · exact Or.inl ⟨s'.inner, by simp only [Dec.withTake, h1]⟩
    · by_cases hn : n ≤ (avail r).length
      · have hfr : fin ({ limit := n, inner := r } : Take R) = .eof := by simp [fin, hn]
        have hpl := hp.length_le
        have hfs : fin ({ limit := n, inner := s } : Take S) = .eof := by
          simp only [fin]; rw [if_pos (by omega)]
        have heq : avail ({ limit := n, inner := s } : Take S) =
            avail ({ limit := n, inner := r } : Take R) := by
          obtain ⟨t', ht⟩ := hp
          simp only [avail]
          rw [← ht, List.take_append_of_le_length hn]
        obtain ⟨s', h4⟩ := h3 heq
        exact Or.inl ⟨s'.inner, by simp only [Dec.withTake, h4, h2, hfr, hfs]⟩
      · have hfr : fin ({ limit := n, inner := r } : Take R) = fin r := by simp [fin, hn]
        refine Or.inr (Or.inl ⟨mk, h1, by rw [h2, hfr], fun h => ?_⟩)
        have hfs : fin ({ limit := n, inner := s } : Take S) = fin s := by
          simp only [fin]; rw [if_neg (by rw [h]; exact hn)]
        obtain ⟨s', h4⟩ := h3 (hav h)
        exact ⟨s'.inner, by simp only [Dec.withTake, h4, hfs]⟩
    · by_cases hn : n ≤ (avail r).length
      · have heq : avail ({ limit := n, inner := s } : Take S) =
            avail ({ limit := n, inner := r } : Take R) := by
          obtain ⟨t', ht⟩ := hp
          simp only [avail]
          rw [← ht, List.take_append_of_le_length hn]
        obtain ⟨s', h4⟩ := h2 heq
        exact Or.inl ⟨s'.inner, by simp only [Dec.withTake, h4]⟩
      · have hD' : Dangling (avail r) := by
          have e : avail ({ limit := n, inner := r } : Take R) = avail r := by
            simp only [avail]
            exact List.take_of_length_le (by omega)
          rwa [e] at hD
        refine Or.inr (Or.inr ⟨h1, hD', fun h => ?_⟩)
        obtain ⟨s', h4⟩ := h2 (hav h)
        exact ⟨s'.inner, by simp only [Dec.withTake, h4]⟩
  | panic => exact h1
  | fuel => exact h1

theorem G.withTake {n : Nat} {d : Dec (Take R) ε α} {d' : Dec (Take S) ε α}
    (hd : G k L d d') : G k L (Dec.withTake n d) (Dec.withTake n d') := by
  intro r s hL hp
  have hp' : avail ({ limit := n, inner := r } : Take R) <+:
      avail ({ limit := n, inner := s } : Take S) := by
    obtain ⟨t, ht⟩ := hp
    simp only [avail]
    rw [← ht, List.take_append]
    exact List.prefix_append _ _
  exact GOut.withTake hp (hd { limit := n, inner := r } { limit := n, inner := s }
    (by simp [avail]; omega) hp')

theorem G.readExact {n : Nat} :
    G n L (Wadec.readExact n : Dec R IoError _) (Wadec.readExact n : Dec S IoError _) := by
  intro r s hL hp
  by_cases h : (avail r).length < n
  · obtain ⟨r', h1⟩ := readExact_err h
    rw [h1]
    refine Or.inr (Or.inl ⟨id, fun x => rfl, rfl, fun hh => ?_⟩)
    exact readExact_err (by rw [hh]; exact h)
  · have hl : ((avail r).take n).length = n := by simp; omega
    obtain ⟨r', h1, h2⟩ := readExact_ok (r := r) (bs := (avail r).take n)
      (rest := (avail r).drop n) (by simp)
    obtain ⟨t, ht⟩ := hp
    obtain ⟨s', h3, h4⟩ := readExact_ok (r := s) (bs := (avail r).take n)
      (rest := (avail r).drop n ++ t) (by rw [← List.append_assoc]; simp [ht])
    rw [hl] at h1 h3
    rw [h1]
    exact ⟨_, s', by omega, h3, h2, h4⟩

theorem G.readByte :
    G 1 L (Wadec.readByte : Dec R IoError _) (Wadec.readByte : Dec S IoError _) := by
  intro r s hL hp
  have h := G.readExact (n := 1) r s hL hp
  have hsnd := Sound.readExact (R := R) (n := 1) r
  simp only [Wadec.readByte, Bind.bind, Dec.bind]
  rcases hdr : (Wadec.readExact 1 : Dec R IoError _) r with ⟨res, r'⟩
  rw [hdr] at h
  cases res with
  | ok v =>
    obtain ⟨bs, s', hk, hs, ha, ha'⟩ := h
    obtain ⟨bs', _, _, hl⟩ := hsnd v r' hdr
    match v, hl with
    | [b], _ =>
      exact ⟨bs, s', hk, by simp only [Wadec.readByte, Bind.bind, Dec.bind, hs]; rfl, ha, ha'⟩
  | err e =>
    rcases h with ⟨s', h1⟩ | ⟨mk, h1, h2, h3⟩ | ⟨h1, hD, h2⟩
    · exact Or.inl ⟨s', by simp only [Wadec.readByte, Bind.bind, Dec.bind, h1]⟩
    · refine Or.inr (Or.inl ⟨mk, h1, h2, fun h => ?_⟩)
      obtain ⟨s', h4⟩ := h3 h
      exact ⟨s', by simp only [Wadec.readByte, Bind.bind, Dec.bind, h4]⟩
    · cases h1
  | panic => exact h
  | fuel => exact h

end good

/-! ### Where an error comes from -/

theorem Dec.bind_err {d : Dec R ε α} {f : α → Dec R ε β} {r r' : R} {e : ε}
    (h : (d >>= f) r = (.err e, r')) :
    d r = (.err e, r') ∨ ∃ v r1, d r = (.ok v, r1) ∧ f v r1 = (.err e, r') := by
  simp only [Bind.bind, Dec.bind] at h
  rcases hd : d r with ⟨res, r1⟩
  rw [hd] at h
  cases res with
  | ok v => exact .inr ⟨v, r1, rfl, h⟩
  | err e1 => cases h; exact .inl rfl
  | panic => cases h
  | fuel => cases h

theorem Dec.mapErr_err {d : Dec R ε α} {f : ε → ε'} {r r' : R} {e : ε'}
    (h : d.mapErr f r = (.err e, r')) : ∃ e0, e = f e0 ∧ d r = (.err e0, r') := by
  simp only [Dec.mapErr] at h
  rcases hd : d r with ⟨res, r1⟩
  rw [hd] at h
  cases res <;> cases h
  exact ⟨_, rfl, rfl⟩

theorem Dec.mapErr_ok {d : Dec R ε α} {f : ε → ε'} {r r' : R} {v : α}
    (h : d.mapErr f r = (.ok v, r')) : d r = (.ok v, r') := by
  simp only [Dec.mapErr] at h
  rcases hd : d r with ⟨res, r1⟩
  rw [hd] at h
  cases res <;> cases h
  rfl

theorem Dec.withChain_err {b : UInt8} {d : Dec (Chain R) ε α} {r r' : R} {e : ε}
    (h : Dec.withChain b d r = (.err e, r')) :
    ∃ c : Chain R, c.inner = r' ∧ d { first := [b], inner := r } = (.err e, c) := by
  simp only [Dec.withChain] at h
  rcases hd : d { first := [b], inner := r } with ⟨res, c⟩
  rw [hd] at h
  cases h
  exact ⟨c, rfl, rfl⟩

/-! ### Failure -/

/-- On every input that starts with `bs`, `d` fails with `e`. -/
def Fails [LawfulRead R] (d : Dec R ε α) (bs : List UInt8) (e : ε) : Prop :=
  ∀ r rest, avail r = bs ++ rest → ∃ r', d r = (.err e, r')

/-- When exactly the bytes `bs` are available, `d` fails with the error `mk x`, where `x` is the
I/O error with which the reader ends. -/
def Ends [LawfulRead R] (d : Dec R ε α) (bs : List UInt8) (mk : IoError → ε) : Prop :=
  ∀ r, avail r = bs → ∃ r', d r = (.err (mk (fin r).toErr), r')

section fails
variable [LawfulRead R]

theorem Fails.err {e : ε} : Fails (R := R) (Dec.err e : Dec R ε α) [] e :=
  fun r _ _ => ⟨r, rfl⟩

theorem Fails.extend {d : Dec R ε α} {bs bs' : List UInt8} {e : ε} (h : Fails d bs e) :
    Fails d (bs ++ bs') e :=
  fun r rest ha => h r (bs' ++ rest) (by rw [ha, List.append_assoc])

theorem Fails.bind1 {d : Dec R ε α} {f : α → Dec R ε β} {bs : List UInt8} {e : ε}
    (h : Fails d bs e) : Fails (d >>= f) bs e := by
  intro r rest ha
  obtain ⟨r', h'⟩ := h r rest ha
  exact ⟨r', by simp only [Bind.bind, Dec.bind, h']⟩

theorem Fails.bind2 {d : Dec R ε α} {f : α → Dec R ε β} {b1 b2 : List UInt8} {x : α} {e : ε}
    (hd : Runs d b1 x) (hf : Fails (f x) b2 e) : Fails (d >>= f) (b1 ++ b2) e := by
  intro r rest ha
  obtain ⟨r1, h1, ha1⟩ := hd r (b2 ++ rest) (by rw [ha, List.append_assoc])
  have := adv_avail ha1
  rw [ha, List.append_assoc, List.append_cancel_left_eq] at this
  obtain ⟨r2, h2⟩ := hf r1 rest this.symm
  exact ⟨r2, by simp only [Bind.bind, Dec.bind, h1, h2]⟩

theorem Fails.mapErr {d : Dec R ε α} {f : ε → ε'} {bs : List UInt8} {e : ε} (h : Fails d bs e) :
    Fails (d.mapErr f) bs (f e) := by
  intro r rest ha
  obtain ⟨r', h'⟩ := h r rest ha
  exact ⟨r', by simp only [Dec.mapErr, h']⟩

theorem Fails.ite_pos {c : Prop} [Decidable c] {a b : Dec R ε α} {bs : List UInt8} {e : ε} (h : c)
    (hd : Fails a bs e) : Fails (if c then a else b) bs e := by
  rw [if_pos h]; exact hd

theorem Fails.ite_neg {c : Prop} [Decidable c] {a b : Dec R ε α} {bs : List UInt8} {e : ε} (h : ¬c)
    (hd : Fails b bs e) : Fails (if c then a else b) bs e := by
  rw [if_neg h]; exact hd

theorem Fails.withChain {b : UInt8} {d : Dec (Chain R) ε α} {bs : List UInt8} {e : ε}
    (hd : Fails d (b :: bs) e) : Fails (Dec.withChain b d) bs e := by
  intro r rest h
  obtain ⟨c, h1⟩ := hd { first := [b], inner := r } rest (by simp [avail, h])
  exact ⟨c.inner, by simp only [Dec.withChain, h1]⟩

/-- On every input that starts with `bs`, `d` fails, having consumed exactly `bs`. -/
def FailsAt (d : Dec R ε α) (bs : List UInt8) : Prop :=
  ∀ r rest, avail r = bs ++ rest → ∃ e r', d r = (.err e, r') ∧ Adv bs r r'

theorem FailsAt.err {e : ε} : FailsAt (Dec.err e : Dec R ε α) [] :=
  fun r _ _ => ⟨e, r, rfl, adv_nil r⟩

theorem FailsAt.bind1 {d : Dec R ε α} {f : α → Dec R ε β} {bs : List UInt8}
    (h : FailsAt d bs) : FailsAt (d >>= f) bs := by
  intro r rest ha
  obtain ⟨e, r', h', h''⟩ := h r rest ha
  exact ⟨e, r', by simp only [Bind.bind, Dec.bind, h'], h''⟩

theorem FailsAt.bind2 {d : Dec R ε α} {f : α → Dec R ε β} {b1 b2 : List UInt8} {x : α}
    (hd : Runs d b1 x) (hf : FailsAt (f x) b2) : FailsAt (d >>= f) (b1 ++ b2) := by
  intro r rest ha
  obtain ⟨r1, h1, ha1⟩ := hd r (b2 ++ rest) (by rw [ha, List.append_assoc])
  have := adv_avail ha1
  rw [ha, List.append_assoc, List.append_cancel_left_eq] at this
  obtain ⟨e, r2, h2, ha2⟩ := hf r1 rest this.symm
  exact ⟨e, r2, by simp only [Bind.bind, Dec.bind, h1, h2], adv_trans ha1 ha2⟩

theorem FailsAt.mapErr {d : Dec R ε α} {f : ε → ε'} {bs : List UInt8} (h : FailsAt d bs) :
    FailsAt (d.mapErr f) bs := by
  intro r rest ha
  obtain ⟨e, r', h', h''⟩ := h r rest ha
  exact ⟨f e, r', by simp only [Dec.mapErr, h'], h''⟩

theorem FailsAt.ite_neg {c : Prop} [Decidable c] {a b : Dec R ε α} {bs : List UInt8} (h : ¬c)
    (hd : FailsAt b bs) : FailsAt (if c then a else b) bs := by
  rw [if_neg h]; exact hd

theorem FailsAt.withChain {b : UInt8} {d : Dec (Chain R) ε α} {bs : List UInt8}
    (hd : FailsAt d (b :: bs)) : FailsAt (Dec.withChain b d) bs := by
  intro r rest h
  obtain ⟨e, c, h1, b1, b2, h2, h3, h4, h5⟩ := hd { first := [b], inner := r } rest
    (by simp [avail, h])
  refine ⟨e, c.inner, by simp only [Dec.withChain, h1], ?_⟩
  simp only at h3 h4
  match b1, h3 with
  | [], h3 =>
    simp at h2 h3
    have := h5 (by rw [← h2]; simp)
    rw [this] at h3; cases h3
  | [x], h3 =>
    simp at h2
    rw [h2.2]; exact h4
  | _ :: _ :: _, h3 => simp at h3

theorem Ends.bind1 {d : Dec R ε α} {f : α → Dec R ε β} {bs : List UInt8} {mk : IoError → ε}
    (h : Ends d bs mk) : Ends (d >>= f) bs mk := by
  intro r ha
  obtain ⟨r', h'⟩ := h r ha
  exact ⟨r', by simp only [Bind.bind, Dec.bind, h']⟩

theorem Ends.bind2 {d : Dec R ε α} {f : α → Dec R ε β} {b1 b2 : List UInt8} {x : α}
    {mk : IoError → ε} (hd : Runs d b1 x) (hf : Ends (f x) b2 mk) : Ends (d >>= f) (b1 ++ b2) mk := by
  intro r ha
  obtain ⟨r1, h1, ha1⟩ := hd r b2 ha
  have := adv_avail ha1
  rw [ha, List.append_cancel_left_eq] at this
  obtain ⟨r2, h2⟩ := hf r1 this.symm
  exact ⟨r2, by simp only [Bind.bind, Dec.bind, h1, h2, adv_fin ha1]⟩

theorem Ends.mapErr {d : Dec R ε α} {f : ε → ε'} {bs : List UInt8} {mk : IoError → ε}
    (h : Ends d bs mk) : Ends (d.mapErr f) bs (fun x => f (mk x)) := by
  intro r ha
  obtain ⟨r', h'⟩ := h r ha
  exact ⟨r', by simp only [Dec.mapErr, h']⟩

theorem Ends.readExact {bs : List UInt8} {n : Nat} (h : bs.length < n) :
    Ends (R := R) (Wadec.readExact n) bs id := by
  intro r ha
  exact readExact_err (by rw [ha]; exact h)

theorem Ends.readByte : Ends (R := R) Wadec.readByte [] id :=
  Ends.bind1 (Ends.readExact (by simp))

end fails
end Wadec
