import Verif.Proof.Tape

/-! C80: `decode_module` reads exactly as far as it needs.

Some beginnings of an input settle the outcome: whatever follows, the result is a certain error
(`Settled`).  `decode_module` returns as soon as it has such a beginning, and not before. -/

namespace Wadec

open LawfulRead Spec

variable {σ τ : Type} {I : Impl σ} {J : Impl τ} {ρ ρ' : List Ev → Nat}

/-- The bytes `p` settle the outcome: there is an error that every reader gives that delivers `p` first,
whatever it does afterwards. -/
def Settled (p : Bytes) : Prop := ∃ e, Forced p e

theorem Settled.mono {p q : Bytes} (h : Settled p) (hq : p <+: q) : Settled q :=
  h.imp fun _ hF s hs => hF s (hq.trans hs)

theorem settled_of_calls {s s' : σ} {e : DecodeModuleError} {calls : List Ev}
    (h : Returns I ρ s (.err e) calls s') (hE : ¬ Ended calls) : Forced (Src.stream calls) e := by
  intro t ht
  have hb := (bytes_append calls []).2 hE
  obtain ⟨u, hu⟩ := ht
  -- the rest of the script `t`, as a script
  obtain ⟨later, h1, h2⟩ := exists_script u (fin t) (fin_ne t)
  have h3 := c56_calls h later
  have h4 := (bytes_append calls later).2 hE
  have := c31_fragmentation (⟨[], calls ++ later⟩ : Script ρ 0) t
    (by show _ = Src.bytes (calls ++ later); rw [h4.1, h4.2.2, h1, hu])
    (by show _ = Src.ending (calls ++ later); rw [h4.2.1, h2])
  rw [this, h3]

/-- The bytes read are those before the end, as there is no call behind it. -/
theorem stream_bytes {s s' : σ} {res : Res DecodeModuleError Module} {calls : List Ev}
    (h : Returns I ρ s res calls s') : Src.stream calls = Src.bytes calls := by
  by_cases hE : Ended calls
  · obtain ⟨before, ev, after, hc, hbe, hev⟩ := ended_split hE
    have hst : ev.Stops := by
      rcases hev with ⟨rfl, _⟩ | ⟨x, rfl, hx⟩
      · exact .inl rfl
      · refine .inr ⟨x, rfl, ?_⟩
        rintro rfl
        exact Src.ending_ne _ hx
    have ha := c57_last h hc hst
    subst ha
    rw [hc, stream_snoc, (bytes_append before [ev]).2 hbe |>.1, (bytes_append before [ev]).2 hbe |>.2.2]
    rcases hst with rfl | ⟨x, rfl, hx⟩
    · rfl
    · cases x with
      | interrupted => exact absurd rfl hx
      | _ => rfl
  · exact ((bytes_append calls []).2 hE).2.2.symm

/-- C80: `decode_module` has been told of the end of the input (or of a failure) if and only if the
bytes it has read do not settle the outcome; and no shorter beginning of these bytes does. -/
theorem c80_prompt {s s' : σ} {res : Res DecodeModuleError Module} {calls : List Ev}
    (h : Returns I ρ s res calls s') :
    (¬ Ended calls ↔ Settled (Src.stream calls)) ∧
    ∀ p, p <+: Src.stream calls → p ≠ Src.stream calls → ¬ Settled p := by
  have hs := stream_bytes h
  refine ⟨⟨fun hE => ?_, fun ⟨e, hF⟩ hE => ?_⟩, ?_⟩
  · rcases c56_no_panic h with ⟨m, rfl⟩ | ⟨e, rfl⟩
    · exfalso
      obtain ⟨before, e, hc, he, _⟩ := c57_ok h
      apply hE
      rw [hc]
      refine ended_snoc.2 (.inr ?_)
      rcases he with rfl | rfl
      · exact .inl rfl
      · exact .inr ⟨_, rfl, by simp⟩
    · exact ⟨e, settled_of_calls h hE⟩
  · exact not_forced (replay h) (by rw [hs]; exact List.prefix_refl _) (.inl hE) e hF
  · rintro p hp hne ⟨e, hF⟩
    refine not_forced (replay h) (by rw [← hs]; exact hp) (.inr fun hq => hne ?_) e hF
    exact hp.eq_of_length_le hq.length_le

/-- C80: what settles the outcome does so for every implementation of `Read` (`Settled` speaks of
scripts): a run on a reader that delivers these bytes first gives the error. -/
theorem c80_settled {p : Bytes} {e : DecodeModuleError} (hF : Forced p e) {k : Nat} {s s' : σ} {bs : Bytes}
    {x : End} (hd : Delivers I k s bs x) (hp : p <+: bs) {res : Res DecodeModuleError Module}
    {calls : List Ev} (h : Returns I ρ s res calls s') : res = .err e := by
  obtain ⟨later, h1, _⟩ := delivers_calls hd (c56_trace h)
  exact forced_run (later := later) hF h (by rw [h1]; exact hp)

/-- C80: how much is read: of a reader that delivers `bs`, the shortest beginning of `bs` that settles
the outcome, and all of `bs` (and then its end) if there is none. -/
theorem c80_amount {k : Nat} {s s' : σ} {bs : Bytes} {x : End} (hd : Delivers I k s bs x)
    {res : Res DecodeModuleError Module} {calls : List Ev} (h : Returns I ρ s res calls s') :
    Src.stream calls <+: bs ∧ (Ended calls → Src.stream calls = bs) ∧ (Ended calls ↔ ¬ Settled bs) ∧
    ∀ p, p <+: bs → (Settled p ↔ ¬ Ended calls ∧ Src.stream calls <+: p) := by
  obtain ⟨hA, hB⟩ := c80_prompt h
  obtain ⟨later, h1, _⟩ := delivers_calls hd (c56_trace h)
  have hs : Ended calls → Src.stream calls = bs := by
    intro hE
    have h2 := ((bytes_append calls later).1 hE).1
    rw [stream_bytes h, ← h2, h1]
  have hp : Src.stream calls <+: bs := by
    by_cases hE : Ended calls
    · rw [hs hE]; exact List.prefix_refl _
    · have h2 := (bytes_append calls later).2 hE
      rw [h1, h2.2.2] at h2
      exact ⟨_, h2.1.symm⟩
  have key : ∀ p, p <+: bs → (Settled p ↔ ¬ Ended calls ∧ Src.stream calls <+: p) := by
    intro p hpb
    constructor
    · intro hS
      have hle : Src.stream calls <+: p := by
        apply Classical.byContradiction
        intro hn
        rcases Nat.le_total (Src.stream calls).length p.length with hl | hl
        · exact hn (List.prefix_of_prefix_length_le hp hpb hl)
        · have hpp := List.prefix_of_prefix_length_le hpb hp hl
          refine hB p hpp ?_ hS
          rintro rfl
          exact hn (List.prefix_refl _)
      refine ⟨fun hE => ?_, hle⟩
      have : p = Src.stream calls := by
        rw [hs hE] at hle ⊢
        exact hpb.eq_of_length_le hle.length_le
      exact hA.2 (this ▸ hS) hE
    · rintro ⟨hE, hle⟩
      exact (hA.1 hE).mono hle
  refine ⟨hp, hs, ⟨fun hE hS => ((key bs (List.prefix_refl _)).1 hS).1 hE, fun hS => ?_⟩, key⟩
  apply Classical.byContradiction
  exact fun hE => hS ((key bs (List.prefix_refl _)).2 ⟨hE, hp⟩)

/-- C80: two readers that deliver the same bytes, in whatever chunks and however they end, are read to
the same point. -/
theorem c80_same {k l : Nat} {s s' : σ} {t t' : τ} {bs : Bytes} {x y : End} (hd : Delivers I k s bs x)
    (hd' : Delivers J l t bs y) {res res' : Res DecodeModuleError Module} {calls calls' : List Ev}
    (h : Returns I ρ s res calls s') (h' : Returns J ρ' t res' calls' t') :
    Src.stream calls = Src.stream calls' ∧ (Ended calls ↔ Ended calls') := by
  obtain ⟨h1, h2, h3, h4⟩ := c80_amount hd h
  obtain ⟨g1, g2, g3, g4⟩ := c80_amount hd' h'
  refine ⟨?_, h3.trans g3.symm⟩
  by_cases hS : Settled bs
  · have hE : ¬ Ended calls := fun h => h3.1 h hS
    have gE : ¬ Ended calls' := fun h => g3.1 h hS
    have e1 := ((h4 _ g1).1 ((g4 _ g1).2 ⟨gE, List.prefix_refl _⟩)).2
    have e2 := ((g4 _ h1).1 ((h4 _ h1).2 ⟨hE, List.prefix_refl _⟩)).2
    exact e1.eq_of_length_le e2.length_le
  · rw [h2 (h3.2 hS), g2 (g3.2 hS)]

/-- C80: three runs tell whether bytes settle the outcome: on a reader that delivers them and fails, on one
that fails differently, and on one that delivers a zero byte more. -/
theorem c80_test {R0 R1 R2 : Type} [LawfulRead R0] [LawfulRead R1]
    [LawfulRead R2] {p : Bytes} {k l n : Nat} (hkl : k ≠ l) {r0 : R0} {r1 : R1} {r2 : R2}
    (ha0 : avail r0 = p) (hf0 : fin r0 = .fail (.other k)) (ha1 : avail r1 = p)
    (hf1 : fin r1 = .fail (.other l)) (ha2 : avail r2 = p ++ [0]) (hf2 : fin r2 = .fail (.other n))
    (e : DecodeModuleError) :
    Forced p e ↔ (decodeModule r0).1 = .err e ∧ (decodeModule r1).1 = .err e ∧ (decodeModule r2).1 = .err e := by
  have hp : p <+: Src.bytes [.data p] := by
    cases p with
    | nil => exact List.prefix_refl _
    | cons b p => exact ⟨[], rfl⟩
  -- the verdict on a lawful reader is that of a run on a script
  have key : ∀ {R : Type} [LawfulRead R] (r : R) (z : List Ev), (∀ t, z ≠ .fail .interrupted :: t) →
      avail r = p ++ Src.bytes z → fin r = Src.ending z →
      ∃ calls s, Returns tape (fun _ => 0) (keep p [.data p] ++ z) (decodeModule r).1 calls s ∧
        ∃ later, Src.bytes (calls ++ later) = p ++ Src.bytes z := by
    intro R _ r z hz ha hf
    obtain ⟨_, hk1, hk2⟩ := keep_keep hz [.data p] p hp
    obtain ⟨res, calls, s, h⟩ := c56_terminates (ρ := fun _ => 0) tape_winds (keep p [.data p] ++ z)
    obtain ⟨later, g1, g2⟩ := delivers_calls (tape_delivers _ _ (Nat.lt_succ_self _)) (c56_trace h)
    have h1 := c56_calls h later
    have h2 := c31_fragmentation (⟨[], calls ++ later⟩ : Script (fun _ => 0) 0) r
      (by rw [ha, ← hk1, ← g1]; rfl) (by rw [hf, ← hk2, ← g2]; rfl)
    rw [h1] at h2
    rw [h2]
    exact ⟨calls, s, h, later, by rw [g1, hk1]⟩
  constructor
  · intro hF
    have key2 : ∀ {R : Type} [LawfulRead R] (r : R) (z : List Ev), (∀ t, z ≠ .fail .interrupted :: t) →
        avail r = p ++ Src.bytes z → fin r = Src.ending z → (decodeModule r).1 = .err e := by
      intro R _ r z hz ha hf
      obtain ⟨calls, s, h, later, hl⟩ := key r z hz ha hf
      exact forced_run (later := later) hF h (by rw [hl]; exact List.prefix_append _ _)
    exact ⟨key2 r0 [.fail (.other k)] (by intro t h; cases h) (by rw [ha0]; simp [Src.bytes]) (by rw [hf0]; rfl),
      key2 r1 [.fail (.other l)] (by intro t h; cases h) (by rw [ha1]; simp [Src.bytes]) (by rw [hf1]; rfl),
      key2 r2 [.data [0], .fail (.other n)] (by intro t h; cases h) (by rw [ha2]; simp [Src.bytes]) (by rw [hf2]; rfl)⟩
  · rintro ⟨h0, h1, h2⟩
    obtain ⟨c0, s0, g0, l0, m0⟩ := key r0 [.fail (.other k)] (by intro t h; cases h) (by rw [ha0]; simp [Src.bytes])
      (by rw [hf0]; rfl)
    obtain ⟨c1, s1, g1, l1, m1⟩ := key r1 [.fail (.other l)] (by intro t h; cases h) (by rw [ha1]; simp [Src.bytes])
      (by rw [hf1]; rfl)
    obtain ⟨c2, s2, g2, _⟩ := key r2 [.data [0], .fail (.other n)] (by intro t h; cases h)
      (by rw [ha2]; simp [Src.bytes]) (by rw [hf2]; rfl)
    rw [h0] at g0
    rw [h1] at g1
    rw [h2] at g2
    have fin0 : ∀ {c s l : List Ev} {x : Nat}, Returns tape (fun _ => 0) (keep p [.data p] ++ [.fail (.other x)])
        (.err e) c s → Src.bytes (c ++ l) = p ++ Src.bytes [.fail (.other x)] → ¬ Ended c → Forced p e := by
      intro c s l x g hl hE t ht
      refine settled_of_calls g hE t (List.IsPrefix.trans ?_ ht)
      have := (bytes_append c l).2 hE
      rw [hl, this.2.2] at this
      exact ⟨Src.bytes l, by rw [← this.1]; simp [Src.bytes]⟩
    by_cases hE0 : Ended c0
    · by_cases hE1 : Ended c1
      · exact (three_runs hkl hp g0 g1 g2 hE0 hE1).elim
      · exact fin0 g1 m1 hE1
    · exact fin0 g0 m0 hE0

/-- C80: no beginning of a valid module settles anything: only invalid input is left unread. -/
theorem c80_valid {bs p : Bytes} {m : Module} (hm : BModule bs m) (hp : p <+: bs) : ¬ Settled p := by
  rintro ⟨e, hF⟩
  have h := hF (Src.ofBytes bs) (by rw [avail_ofBytes]; exact hp)
  obtain ⟨r', h'⟩ := c18_complete (r := Src.ofBytes bs) (by rw [avail_ofBytes]; exact hm) (fin_ofBytes bs)
  rw [h'] at h
  cases h

/-! ### Readers that hang -/

/-- In state `s` the implementation delivers the bytes `p` first, within `k` calls; nothing is said
about what it does afterwards. -/
def Begins {σ : Type} (I : Impl σ) : Nat → σ → Bytes → Prop
  | _, _, [] => True
  | 0, _, _ :: _ => False
  | k + 1, s, b :: p => ∀ n, 0 < n →
    match I.read n s with
    | (.ok [], _) => False
    | (.ok (c :: cs), s') => b :: p <+: c :: cs ∨ ∃ rest, b :: p = c :: cs ++ rest ∧ Begins I k s' rest
    | (.error .interrupted, s') => Begins I k s' (b :: p)
    | (.error _, _) => False

/-- `I`, cut behind its first `k` bytes: then it fails. -/
def Impl.cutOff (I : Impl σ) (x : IoError) : Impl (σ × Nat) where
  read n s :=
    match s with
    | (s, 0) => (.error x, (s, 0))
    | (s, k + 1) =>
      match I.read n s with
      | (.ok bs, s') => (.ok (bs.take (k + 1)), (s', k + 1 - bs.length))
      | (.error e, s') => (.error e, (s', k + 1))
  fits := by
    rintro n ⟨s, k⟩ bs s' h
    cases k with
    | zero => cases h
    | succ k =>
      simp only at h
      generalize hi : I.read n s = o at h
      obtain ⟨o, s1⟩ := o
      cases o with
      | error e => cases h
      | ok d =>
        cases h
        have := I.fits hi
        rw [List.length_take]
        omega

/-- `I`, with a note: how many of the first bytes are left, and `none` once it has been asked for
more. -/
def Impl.noted (I : Impl σ) : Impl (σ × Option Nat) where
  read n s := ((I.read n s.1).1, ((I.read n s.1).2,
    match s.2, (I.read n s.1).1 with
    | some (k + 1), .ok d => if d.length ≤ k + 1 then some (k + 1 - d.length) else none
    | some (k + 1), .error _ => some (k + 1)
    | _, _ => none))
  fits := fun {n s bs s'} h => I.fits (n := n) (s := s.1) (s' := (I.read n s.1).2) (by
    simp only [Prod.mk.injEq] at h
    rw [← h.1])

theorem of_noted {b : Nat} : Sim (fun (r : Rec I.noted ρ b) (t : Rec I ρ b) =>
    r.state.1 = t.state ∧ r.calls = t.calls) where
  read := by
    rintro n r res r' t' hr ⟨h1, h2⟩
    rw [rec_read] at hr
    cases hr
    refine ⟨⟨r.state.1, r.calls⟩, ⟨rfl, rfl⟩, ?_⟩
    rw [rec_read]
    obtain ⟨ts, tc⟩ := t'
    simp only at h1 h2
    subst h1 h2
    rfl
  weight := fun _ => Nat.le_refl _
  reserve := fun h => ⟨_, h, rfl⟩
  room := fun h => by
    simp only [Read.room]
    rw [h.2]

/-- The run on `I`, and the run on `I` cut off. -/
def cuts (I : Impl σ) (ρ : List Ev → Nat) (x : IoError) (b : Nat) :
    Scene (Rec I.noted ρ b) (Rec (I.cutOff x) ρ b) where
  Rel r s := r.calls = s.calls ∧ r.state.1 = s.state.1 ∧ r.state.2 = some s.state.2
  Beyond r := r.state.2 = none
  Cut s := s.state.2 = 0
  Done s := Ended s.calls
  N _ := True
  X := x

theorem cuts_fair {x : IoError} {b : Nat} (hi : x ≠ .interrupted) (he : x ≠ .unexpectedEof) :
    (cuts I ρ x b).Fair where
  step := by
    rintro n ⟨⟨rs, rk⟩, c⟩ ⟨⟨ss, k⟩, c'⟩ ⟨h1, h2, h3⟩ hn
    simp only at h1 h2 h3
    subst h1 h2 h3
    rw [rec_read, rec_read]
    cases k with
    | zero => exact .inr (.inl ⟨rfl, rfl, ended_snoc.2 (.inr (.inr ⟨x, rfl, hi⟩))⟩)
    | succ k =>
      simp only [Impl.noted, Impl.cutOff]
      generalize hr : I.read n rs = o
      obtain ⟨o, s1⟩ := o
      cases o with
      | error e => exact .inl ⟨rfl, rfl, rfl, rfl⟩
      | ok d =>
        simp only
        by_cases hd : d.length ≤ k + 1
        · rw [if_pos hd, List.take_of_length_le hd]
          exact .inl ⟨rfl, rfl, rfl, rfl⟩
        · rw [if_neg hd]
          have := I.fits hr
          cases d with
          | nil => simp at hd
          | cons y ys =>
            refine .inr (.inr ⟨rfl, ⟨y, ys.take k, rfl, ?_⟩, ?_⟩)
            · simp only [List.length_cons, List.length_take] at hd this ⊢
              omega
            · show k + 1 - (y :: ys).length = 0
              omega
  cut := by
    rintro n ⟨⟨ss, k⟩, c⟩ h hn
    have h : k = 0 := h
    subst h
    rw [rec_read]
    exact ⟨rfl, ended_snoc.2 (.inr (.inr ⟨x, rfl, hi⟩))⟩
  far := by
    rintro n ⟨⟨rs, rk⟩, c⟩ h hn
    have h : rk = none := h
    subst h
    rfl
  not := by
    rintro r s ⟨_, _, h3⟩ h
    have h : r.state.2 = none := h
    rw [h] at h3
    cases h3
  weight := fun _ => rfl
  room := fun h => by
    simp only [Read.room]
    rw [h.1]
  reserve := fun h => h
  reserveFar := fun h => h
  int := hi
  eof := he

theorem cuts_lamp {x : IoError} {b : Nat} : Lamp (cuts I ρ x b).N :=
  ⟨⟨fun _ _ _ => trivial, fun _ _ _ => trivial, fun _ _ _ => trivial⟩, fun _ _ => trivial⟩

theorem cutOff_delivers {x : IoError} (hx : x ≠ .interrupted) : ∀ (k : Nat) (s : σ) (p : Bytes), Begins I k s p →
    Delivers (I.cutOff x) (k + 1) (s, p.length) p (.fail x)
  | k, s, [], _ => fun n _ => by
    cases x with
    | interrupted => exact absurd rfl hx
    | _ => exact ⟨rfl, rfl⟩
  | 0, _, _ :: _, h => h.elim
  | k + 1, s, b :: p, h => fun n hn => by
    have h := h n hn
    simp only [Impl.cutOff, List.length_cons]
    generalize I.read n s = o at h
    match o, h with
    | (.ok [], s'), h => exact h.elim
    | (.ok (c :: cs), s'), h =>
      rcases h with h | ⟨rest, h1, h2⟩
      · refine ⟨[], ?_, ?_⟩
        · obtain ⟨u, hu⟩ := h
          simp only [List.cons_append, List.cons.injEq] at hu
          obtain ⟨rfl, rfl⟩ := hu
          simp
        · have : p.length + 1 - (c :: cs).length = 0 := by
            have := h.length_le
            simp only [List.length_cons] at this ⊢
            omega
          simp only [this]
          exact cutOff_delivers hx k s' [] (by cases k <;> trivial)
      · have hl : p.length + 1 = (c :: cs).length + rest.length := by
          have := congrArg List.length h1
          simp only [List.length_cons, List.length_append] at this ⊢
          omega
        refine ⟨rest, ?_, ?_⟩
        · rw [h1]
          simp only [List.length_cons] at hl
          simp only [List.cons_append]
          rw [List.take_of_length_le (by omega)]
        · simp only [hl, Nat.add_sub_cancel_left]
          exact cutOff_delivers hx k s' rest h2
    | (.error .interrupted, s'), h => exact cutOff_delivers hx k s' (b :: p) h
    | (.error .unexpectedEof, s'), h => exact h.elim
    | (.error (.other y), s'), h => exact h.elim

/-- C80: on a reader that delivers bytes that settle the outcome, `decode_module` returns the error,
having asked for nothing beyond them; it does not matter what the reader would do afterwards (it might
hang). -/
theorem c80_returns {k : Nat} {s : σ} {p : Bytes} {e : DecodeModuleError} (hF : Forced p e)
    (hb : Begins I k s p) :
    ∃ calls s', Returns I ρ s (.err e) calls s' ∧ ¬ Ended calls ∧ Src.stream calls <+: p := by
  have hd := cutOff_delivers (x := .other 0) (by simp) k s p hb
  obtain ⟨res, calls, s1, h⟩ := c57_terminates (ρ := ρ) hd
  have hr := c80_settled hF hd (List.prefix_refl _) h
  subst hr
  obtain ⟨h1, _, h2, _⟩ := c80_amount hd h
  have hE : ¬ Ended calls := fun hE => h2.1 hE ⟨e, hF⟩
  obtain ⟨b, h3, _⟩ := h
  have hm := (module_duo (cuts_fair (I := I) (ρ := ρ) (x := .other 0) (b := b) (by simp) (by simp))
    cuts_lamp).rel ⟨(s, some p.length), []⟩ ⟨(s, p.length), []⟩ ⟨rfl, rfl, rfl⟩
  rw [h3] at hm
  rcases hm with hm | ⟨hm, hc, h4, _⟩ | ⟨_, _, _, _, hm⟩
  · cases hm
  · generalize hg : decodeModule (⟨(s, some p.length), []⟩ : Rec I.noted ρ b) = o at hm hc h4
    obtain ⟨o, ⟨⟨s2, m2⟩, c2⟩⟩ := o
    simp only at hm hc h4
    subst hm hc
    obtain ⟨⟨x, y⟩, ⟨e1, e2⟩, h5⟩ := module_sims (of_noted (I := I) (ρ := ρ) (b := b)) _ _ _ ⟨s2, c2⟩ hg
      (by simp) ⟨rfl, rfl⟩
    simp only at e1 e2
    subst e1 e2
    exact ⟨c2, s2, ⟨b, h5, by simp⟩, hE, h1⟩
  · exact absurd hm hE

/-- C80: on a reader that delivers the bytes `p` and then hangs (it delivers no more and never reports an
end or a failure), `decode_module` returns if and only if `p` settles the outcome. -/
theorem c80_hangs {k : Nat} {s : σ} {p : Bytes} (hb : Begins I k s p)
    (hh : ∀ c s', Calls I s c s' → ¬ Ended c ∧ Src.stream c <+: p) :
    (∃ res calls s', Returns I ρ s res calls s') ↔ Settled p := by
  constructor
  · rintro ⟨res, calls, s', h⟩
    obtain ⟨h1, h2⟩ := hh _ _ (c56_trace h)
    exact ((c80_prompt h).1.1 h1).mono h2
  · rintro ⟨e, hF⟩
    obtain ⟨calls, s', h, _⟩ := c80_returns (ρ := ρ) hF hb
    exact ⟨_, calls, s', h⟩

/-! ### Examples -/

/-- Delivers its bytes one at a time, then answers `Interrupted` for ever. -/
def hang : Impl Bytes where
  read
    | _, [] => (.error .interrupted, [])
    | 0, b :: c => (.ok [], b :: c)
    | _ + 1, b :: c => (.ok [b], c)
  fits := by
    rintro n s bs s' h
    match n, s with
    | _, [] => cases h
    | 0, b :: c => cases h; simp
    | n + 1, b :: c => cases h; simp

theorem hang_begins : ∀ p : Bytes, Begins hang p.length p p
  | [] => trivial
  | b :: p => fun n hn => by
    cases n with
    | zero => omega
    | succ n => exact .inr ⟨p, rfl, hang_begins p⟩

theorem hang_calls {s s' : Bytes} {c : List Ev} (h : Calls hang s c s') : ¬ Ended c ∧ Src.stream c ++ s' = s := by
  induction h with
  | nil => exact ⟨id, rfl⟩
  | @snoc s1 s2 c n res _ hn hr ih =>
    rw [ended_snoc, stream_snoc]
    match n, s1, hr with
    | n + 1, [], hr =>
      cases hr
      exact ⟨fun h => h.elim ih.1 int_not_stops, by simpa [Ev.ofResult, Src.stream] using ih.2⟩
    | n + 1, b :: t, hr =>
      cases hr
      exact ⟨fun h => h.elim ih.1 data_not_stops, by simpa [Ev.ofResult, Src.stream] using ih.2⟩

theorem hang_iff (p : Bytes) : (∃ res calls s', Returns hang ρ p res calls s') ↔ Settled p :=
  c80_hangs (hang_begins p) fun _ _ h => ⟨(hang_calls h).1, ⟨_, (hang_calls h).2⟩⟩

/-- A wrong magic number is reported when the eight bytes of the preamble have arrived. -/
example : Settled [0x00, 0x61, 0x73, 0x6e, 1, 0, 0, 0] ∧ ¬ Settled [0x00, 0x61, 0x73, 0x6e, 1, 0, 0] := by
  have h : Returns hang (fun _ => 31) [0x00, 0x61, 0x73, 0x6e, 1, 0, 0, 0] _ _ _ := ⟨40, rfl, by simp⟩
  have := c80_prompt h
  exact ⟨(hang_iff _).1 ⟨_, _, _, h⟩, this.2 _ ⟨[0], rfl⟩ (by decide)⟩

/-- An unknown section id is reported without waiting for the section's size, -/
example : Settled (preamble ++ [0x0e]) :=
  (hang_iff (ρ := fun _ => 31) _).1 ⟨_, _, _, 40, rfl, by simp⟩

/-- an ill-formed type without waiting for the rest of its section. -/
example : Settled (preamble ++ [0x01, 0x20, 0x05, 0x00]) :=
  (hang_iff (ρ := fun _ => 31) _).1 ⟨_, _, _, 40, rfl, by simp⟩

/-- A block type that is cut short by the size of its function body is rejected where that ends; one
that is cut short by a reader is not. -/
example : Settled (preamble ++ [0x0a, 0x10, 0x01, 0x03, 0x00, 0x02, 0x63]) ∧
    ¬ Settled (preamble ++ [0x0a, 0x10, 0x01, 0x08, 0x00, 0x02, 0x63]) := by
  refine ⟨(hang_iff (ρ := fun _ => 31) _).1 ⟨_, _, _, 40, rfl, by simp⟩, ?_⟩
  have h : Returns hang (fun _ => 31) (preamble ++ [0x0a, 0x10, 0x01, 0x08, 0x00, 0x02, 0x63, 0x7b]) _ _ _ :=
    ⟨40, rfl, by simp⟩
  exact (c80_prompt h).2 _ ⟨[0x7b], rfl⟩ (by decide)

/-- No beginning of the sample module settles anything. -/
example (p : Bytes) (hp : p <+: preamble ++ bytesA) : ¬ Settled p :=
  c80_valid (by
    have := c17_sound modA.choose_spec
    rwa [avail_ofBytes] at this) hp

/-- The three runs, for an unknown section id. -/
example : ∃ e, Forced (preamble ++ [0x0e]) e :=
  ⟨_, (c80_test (p := preamble ++ [0x0e]) (k := 0) (l := 1) (n := 2) (by decide)
    (r0 := (⟨[.data (preamble ++ [0x0e]), .fail (.other 0)], []⟩ : Src))
    (r1 := (⟨[.data (preamble ++ [0x0e]), .fail (.other 1)], []⟩ : Src))
    (r2 := (⟨[.data (preamble ++ [0x0e]), .data [0], .fail (.other 2)], []⟩ : Src))
    rfl rfl rfl rfl rfl rfl _).2 ⟨rfl, rfl, rfl⟩⟩

/-- The third is needed: on a block type that is cut short the first two agree. -/
example : ∀ n ∈ [0, 1],
    (match (decodeModule (⟨[.data (preamble ++ [0x0a, 0x10, 0x01, 0x08, 0x00, 0x02, 0x63]), .fail (.other n)], []⟩ : Src)).1 with
    | .err (.DecodeCodeSection (.DecodeList (.ParseElement 0 (.DecodeFunctionBody (.ParseInstruction (.Control
        (.BlockType (.NegativeTypeIndex n)))))))) => n == -29
    | _ => false) = true := by
  decide +kernel

end Wadec
