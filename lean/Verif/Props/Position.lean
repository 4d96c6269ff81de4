import Verif.Proof.Uses
import Verif.Props.Place

/-! C53: a section is judged by its own bytes.  C54: how far into the input `decode_module` reads. -/

namespace Wadec

open LawfulRead Spec

/-! ### C53 -/

section
variable {R S : Type} [LawfulRead R] [LawfulRead S]

/-- Two limited readers that deliver the same bytes and then end: same outcome, same rest. -/
theorem body_same (k : SectionKind) (st : LoopState) {t : Take R} {u : Take S}
    (ha : avail u = avail t) (hl : u.limit = t.limit) (ht : fin t = .eof) (hu : fin u = .eof)
    (hf : (avail t).length = t.limit) :
    (∀ v t', decodeSectionBody k st t = (.ok v, t') →
      ∃ u', decodeSectionBody k st u = (.ok v, u') ∧ u'.limit = t'.limit) ∧
    (∀ e t', decodeSectionBody k st t = (.err e, t') →
      ∃ u', decodeSectionBody k st u = (.err e, u')) := by
  by_cases hk : k = .Custom
  · subst hk
    have hg := name_g (R := Take R) (S := Take S) (L := (avail t).length) t u (Nat.le_refl _)
      (by rw [ha]; exact List.prefix_refl _)
    rcases hn : (decodeName t : _ × _) with ⟨res, t1⟩
    rw [hn] at hg
    have key : (∃ c t' u', decodeSectionCustom t = (.ok c, t') ∧ decodeSectionCustom u = (.ok c, u') ∧
        u'.limit = t'.limit) ∨
        (∃ e t' u', decodeSectionCustom t = (.err e, t') ∧ decodeSectionCustom u = (.err e, u')) := by
      cases res with
      | ok nm =>
        obtain ⟨bs, u1, _, hs, a, a'⟩ := GOut.of_ok hg
        obtain ⟨t2, e2, l2, _⟩ := (custom_spec hn a).1 ht
        obtain ⟨u2, e2', l2', _⟩ := (custom_spec hs a').1 hu
        have hav : avail u1 = avail t1 := by
          rw [adv_avail a, adv_avail a'] at ha
          simpa using ha
        have h1 := a.1
        have h1' := a'.1
        refine .inl ⟨_, t2, u2, e2, by rw [e2', hav], ?_⟩
        rw [l2, l2', hav]
        omega
      | err e =>
        rcases GOut.of_err hg with ⟨s', h⟩ | ⟨mk, h1, h2, h3⟩ | ⟨h1, h2⟩
        · exact .inr ⟨_, _, _, custom_name_err hn, custom_name_err h⟩
        · obtain ⟨s', h⟩ := h3 ha
          rw [hu] at h
          rw [h2, ht] at hn
          exact .inr ⟨_, _, _, custom_name_err hn, custom_name_err h⟩
        · rw [Clear.clear] at h1; cases h1
      | panic => exact hg.elim
      | fuel => exact hg.elim
    rcases key with ⟨c, t', u', h1, h2, h3⟩ | ⟨e, t', u', h1, h2⟩
    · constructor
      · intro v t1 h
        simp only [decodeSectionBody, Bind.bind, Dec.bind, Dec.mapErr, h1, Pure.pure, Dec.ok] at h
        cases h
        exact ⟨u', by simp only [decodeSectionBody, Bind.bind, Dec.bind, Dec.mapErr, h2, Pure.pure, Dec.ok], h3⟩
      · intro e t1 h
        simp only [decodeSectionBody, Bind.bind, Dec.bind, Dec.mapErr, h1, Pure.pure, Dec.ok] at h
        cases h
    · constructor
      · intro v t1 h
        simp only [decodeSectionBody, Bind.bind, Dec.bind, Dec.mapErr, h1] at h
        cases h
      · intro e t1 h
        simp only [decodeSectionBody, Bind.bind, Dec.bind, Dec.mapErr, h1] at h
        cases h
        exact ⟨u', by simp only [decodeSectionBody, Bind.bind, Dec.bind, Dec.mapErr, h2]⟩
  · have hg := body_g (R := Take R) (S := Take S) (L := (avail t).length) hk st t u (Nat.le_refl _)
      (by rw [ha]; exact List.prefix_refl _)
    constructor
    · intro v t' h
      rw [h] at hg
      obtain ⟨bs, u', _, hs, a, a'⟩ := GOut.of_ok hg
      have h1 := a.1
      have h1' := a'.1
      exact ⟨u', hs, by omega⟩
    · intro e t' h
      rw [h] at hg
      rcases GOut.of_err hg with h | ⟨mk, h1, h2, h3⟩ | ⟨_, _, h⟩
      · exact h
      · obtain ⟨u', h⟩ := h3 ha
        rw [hu] at h
        rw [h2, ht]
        exact ⟨u', h⟩
      · exact h ha

/-- A section is refused for the same reason, whatever follows it. -/
theorem section_same (h : SectionHeader) (st : LoopState) {c x y : Bytes} {r : R} {s : S}
    (hr : avail r = c ++ x) (hs : avail s = c ++ y) (hc : c.length = h.size.toNat)
    {e : DecodeModuleError} {r' : R} (he : decodeSection h st r = (.err e, r')) :
    ∃ s', decodeSection h st s = (.err e, s') := by
  rcases validate_cases (R := R) (S := S) st.module h.kind with ⟨v1, v2⟩ | ⟨e', v1, v2⟩
  · rw [section_eq h st v1] at he
    rw [section_eq h st v2]
    have at' : avail ({ limit := h.size.toNat, inner := r } : Take R) = c := by
      simp only [avail]; rw [hr, ← hc, List.take_left]
    have au : avail ({ limit := h.size.toNat, inner := s } : Take S) = c := by
      simp only [avail]; rw [hs, ← hc, List.take_left]
    have ft : fin ({ limit := h.size.toNat, inner := r } : Take R) = .eof := by
      simp only [fin]; rw [if_pos (by rw [hr]; simp; omega)]
    have fu : fin ({ limit := h.size.toNat, inner := s } : Take S) = .eof := by
      simp only [fin]; rw [if_pos (by rw [hs]; simp; omega)]
    obtain ⟨hok, herr⟩ := body_same h.kind st
      (t := ({ limit := h.size.toNat, inner := r } : Take R))
      (u := ({ limit := h.size.toNat, inner := s } : Take S)) (by rw [au, at']) rfl ft fu (by rw [at', hc])
    simp only [Bind.bind, Dec.bind, Dec.withTake] at he ⊢
    rcases hd : decodeSectionBody h.kind st ({ limit := h.size.toNat, inner := r } : Take R) with ⟨res, t⟩
    rw [hd] at he
    cases res with
    | ok v =>
      obtain ⟨u, hu, hl⟩ := hok _ _ hd
      rw [hu]
      simp only at he ⊢
      rw [hl]
      split at he
      · rename_i hz
        simp only [Dec.err, Prod.mk.injEq, Res.err.injEq] at he
        rw [if_pos hz]
        exact ⟨u.inner, by rw [← he.1]; rfl⟩
      · cases he
    | err e1 =>
      obtain ⟨u, hu⟩ := herr _ _ hd
      rw [hu]
      simp only [Prod.mk.injEq, Res.err.injEq] at he
      exact ⟨u.inner, by rw [← he.1]⟩
    | panic => simp at he
    | fuel => simp at he
  · simp only [decodeSection, v1] at he
    simp only [decodeSection, v2]
    simp only [Bind.bind, Dec.bind, Dec.err, Prod.mk.injEq, Res.err.injEq] at he ⊢
    exact ⟨s, he.1, rfl⟩

/-- C53: if the bytes `c` of a section are not the contents of a section that may stand where it
stands, then all inputs that start with the same bytes up to the end of the section are rejected,
with the same error, whatever follows. -/
theorem c53_isolated {p c x y : Bytes} {secs : List Section} {k : SectionKind} {size : UInt32}
    (hat : AtSection (p ++ (c ++ x)) secs k size (c ++ x)) (hc : c.length = size.toNat)
    (hbad : ¬ ∃ sec, sec.kind = k ∧ BContents c sec ∧ Acceptable (secs ++ [sec]))
    {r : R} {s : S} (hr : avail r = p ++ (c ++ x)) (hs : avail s = p ++ (c ++ y)) :
    ∃ e r' s', decodeModule r = (.err e, r') ∧ decodeModule s = (.err e, s') := by
  generalize hi : p ++ (c ++ x) = inp at hat
  generalize hrest : c ++ x = rest at hat hi
  cases hat with
  | @mk bs b1 _ secs _ _ hb hacc h1 =>
    have hp : p = preamble ++ (bs ++ (sectionId k :: b1)) := by
      have : p ++ rest = (preamble ++ (bs ++ (sectionId k :: b1))) ++ rest := by
        rw [hi]; simp
      exact List.append_cancel_right this
    subst hrest
    obtain ⟨r1, _, av, he⟩ := module_at_section (k := k) (rest := c ++ x) hb hacc h1 (r := r)
      (by rw [hr, hp]; simp)
    obtain ⟨s1, _, av', he'⟩ := module_at_section (k := k) (rest := c ++ y) hb hacc h1 (r := s)
      (by rw [hs, hp]; simp)
    rcases hd : decodeSection ⟨k, size⟩ (stateOf secs) r1 with ⟨res, r2⟩
    cases res with
    | ok v =>
      obtain ⟨c', a2, sec, hk, hl, hcc, hac, _⟩ := section_sound hacc _ _ _ hd
      have : c = c' := by
        have := adv_avail a2
        rw [av] at this
        exact (List.append_inj this (by rw [hl, hc])).1
      subst this
      exact absurd ⟨sec, hk, hcc, hac⟩ hbad
    | err e =>
      obtain ⟨s2, hs2⟩ := section_same _ _ av av' hc hd
      exact ⟨e, _, _, he _ _ hd, he' _ _ hs2⟩
    | panic =>
      have := section_m (S := R) ⟨k, size⟩ (stateOf secs) (List.prefix_refl (avail r1))
      rw [hd] at this
      cases this
    | fuel =>
      have := section_m (S := R) ⟨k, size⟩ (stateOf secs) (List.prefix_refl (avail r1))
      rw [hd] at this
      cases this

end

/-! ### C54 -/

theorem Src.read_took (n : Nat) (s : Src) :
    ∃ bs, Took s (Read.read n s).2 bs ∧ bs.length ≤ n ∧
      (∀ bs', (Read.read n s).1 = .ok bs' → bs' = bs) ∧ (∀ e, (Read.read n s).1 = .error e → bs = []) := by
  obtain ⟨evs, log⟩ := s
  simp only [Read.read, Src.read, Took]
  match evs with
  | [] => exact ⟨[], rfl, by simp, fun _ h => by cases h; rfl, nofun⟩
  | .fail e :: t => exact ⟨[], rfl, by simp, nofun, fun _ _ => rfl⟩
  | .data bs :: t =>
    simp only
    split
    · exact ⟨bs, rfl, by assumption, fun _ h => by cases h; rfl, nofun⟩
    · refine ⟨bs.take n, ?_, by simp; omega, fun _ h => by cases h; rfl, nofun⟩
      simp only [Src.stream]
      rw [← List.append_assoc, List.take_append_drop]

theorem took_trans {a b c : Src} {x y : Bytes} (h : Took a b x) (h' : Took b c y) :
    Took a c (x ++ y) := by
  unfold Took at *
  rw [h, h', List.append_assoc]

theorem adv_took {a b : Src} {x : Bytes} (h : Adv x a b) : Took a b x := h.2.2

/-- C54: whatever the outcome, what happened to the reader is that some bytes were taken from it. -/
theorem c54_took (s : Src) : ∃ taken, Took s (decodeModule s).2 taken := by
  refine module_us (R := Src) (fun a b => ∃ t, Took a b t) (fun r => ⟨[], rfl⟩) ?_ ?_
    (fun n r => ⟨[], rfl⟩) s
  · rintro a b c ⟨x, hx⟩ ⟨y, hy⟩
    exact ⟨_, took_trans hx hy⟩
  · intro n r _
    obtain ⟨bs, h, _⟩ := Src.read_took n r
    exact ⟨bs, h⟩

/-- A decoder on `reader.take(n)` takes at most `n` bytes from the reader. -/
theorem take_bound {ε α : Type} {d : Dec (Take Src) ε α} (hd : Uses d) (n : Nat) (s : Src) :
    ∃ bs, Took s (d ⟨n, s⟩).2.inner bs ∧ bs.length ≤ n := by
  obtain ⟨bs, h, hl⟩ := hd (fun a b => ∃ t, Took a.inner b.inner t ∧ t.length + b.limit = a.limit)
    (fun r => ⟨[], rfl, by simp⟩)
    (by
      rintro a b c ⟨x, hx, hx'⟩ ⟨y, hy, hy'⟩
      exact ⟨_, took_trans hx hy, by simp; omega⟩)
    (by
      intro m t _
      simp only [Read.read, Take.read]
      split
      · exact ⟨[], rfl, by simp⟩
      · obtain ⟨bs, h1, h2, h3, h4⟩ := Src.read_took (min m t.limit) t.inner
        simp only [Read.read] at h1 h3 h4
        split <;> rename_i hr <;> rw [hr] at h1 h3 h4
        · rename_i bs' i
          have := h3 bs' rfl
          subst this
          exact ⟨bs', h1, by simp only; omega⟩
        · have := h4 _ rfl
          subst this
          exact ⟨[], h1, by simp⟩)
    (fun m t => ⟨[], rfl, by simp [Read.reserve]⟩) ⟨n, s⟩
  exact ⟨bs, h, by simp only at hl; omega⟩

/-- What a section takes from the reader. -/
theorem section_took {secs : List (UInt32 × Section)} (hacc : Acceptable (secs.map Prod.snd))
    (h : SectionHeader) (s : Src) :
    ∃ bs, Took s (decodeSection h (stateOf secs) s).2 bs ∧ bs.length ≤ h.size.toNat := by
  rcases validate_kind (R := Src) h.kind (sorted_iff.2 hacc.order) with ⟨ho, hv⟩ | ⟨_, p, hp, hr, hk, hv⟩
  · rw [section_eq h _ hv]
    obtain ⟨bs, h1, h2⟩ := take_bound (sectionBody_us (R := Take Src) (k := h.kind) (st := stateOf secs))
      h.size.toNat s
    refine ⟨bs, ?_, h2⟩
    simp only [Bind.bind, Dec.bind, Dec.withTake]
    rcases hd : decodeSectionBody h.kind (stateOf secs) ({ limit := h.size.toNat, inner := s } : Take Src)
      with ⟨res, t⟩
    rw [hd] at h1
    cases res with
    | ok v => simp only; split <;> exact h1
    | err e => exact h1
    | panic => exact h1
    | fuel => exact h1
  · refine ⟨[], ?_, by simp⟩
    simp only [decodeSection, hv]
    rfl

/-- C54: a section is complete and acceptable where it stands, or `decode_module` fails without
having taken a byte from behind the declared end of the section. -/
theorem c54_section {s s' : Src} {res : Res DecodeModuleError Module} {secs : List Section}
    {k : SectionKind} {size : UInt32} {rest : Bytes} (hat : AtSection (avail s) secs k size rest)
    (h : decodeModule s = (res, s')) :
    (∃ c sec rest', rest = c ++ rest' ∧ sec.kind = k ∧ BContents c sec ∧ c.length = size.toNat ∧
      Acceptable (secs ++ [sec])) ∨
    ((∃ e, res = .err e) ∧
      ∃ taken, Took s s' taken ∧ taken.length + rest.length ≤ (avail s).length + size.toNat) := by
  generalize ha : avail s = inp at hat
  cases hat with
  | @mk bs b1 _ secs _ _ hb hacc h1 =>
    obtain ⟨r1, a, av, he⟩ := module_at_section hb hacc h1 ha
    have hx := section_took hacc ⟨k, size⟩ r1
    rcases hd : decodeSection ⟨k, size⟩ (stateOf secs) r1 with ⟨res', r2⟩
    rw [hd] at hx
    cases res' with
    | ok v =>
      obtain ⟨c, a2, sec, hk, hl, hc, hac, _⟩ := section_sound hacc _ _ _ hd
      exact .inl ⟨c, sec, avail r2, by rw [← av]; exact adv_avail a2, hk, hc, hl, hac⟩
    | err e =>
      have := he _ _ hd
      rw [h] at this
      cases this
      obtain ⟨t, h2, h3⟩ := hx
      refine .inr ⟨⟨e, rfl⟩, _, took_trans (adv_took a) h2, ?_⟩
      simp only at h3
      simp only [List.length_append, List.length_cons]
      omega
    | panic =>
      have := section_m (S := Src) ⟨k, size⟩ (stateOf secs) (List.prefix_refl (avail r1))
      rw [hd] at this
      cases this
    | fuel =>
      have := section_m (S := Src) ⟨k, size⟩ (stateOf secs) (List.prefix_refl (avail r1))
      rw [hd] at this
      cases this

/-! Decoders that take a bounded number of bytes. -/

/-- Whatever its outcome, `d` takes at most `n` bytes from the reader. -/
def TakesLe {ε α : Type} (n : Nat) (d : Dec Src ε α) : Prop :=
  ∀ s, ∃ bs, Took s (d s).2 bs ∧ bs.length ≤ n

theorem TakesLe.err {ε α : Type} {n : Nat} {e : ε} : TakesLe n (Dec.err e : Dec Src ε α) :=
  fun _ => ⟨[], rfl, by simp⟩

theorem TakesLe.pure {ε α : Type} {n : Nat} {v : α} : TakesLe n (Pure.pure v : Dec Src ε α) :=
  fun _ => ⟨[], rfl, by simp⟩

theorem TakesLe.panic {ε α : Type} {n : Nat} : TakesLe n (Dec.panic : Dec Src ε α) :=
  fun _ => ⟨[], rfl, by simp⟩

theorem TakesLe.mapErr {ε ε' α : Type} {n : Nat} {d : Dec Src ε α} {f : ε → ε'} (h : TakesLe n d) :
    TakesLe n (d.mapErr f) := by
  intro s
  have := h s
  simp only [Dec.mapErr]
  cases hd : d s with
  | mk res s' => rw [hd] at this; cases res <;> exact this

theorem TakesLe.bind {ε α β : Type} {n m : Nat} {d : Dec Src ε α} {f : α → Dec Src ε β}
    (h : TakesLe n d) (hf : ∀ v, TakesLe m (f v)) : TakesLe (n + m) (d >>= f) := by
  intro s
  obtain ⟨x, h1, h2⟩ := h s
  simp only [Bind.bind, Dec.bind]
  cases hd : d s with
  | mk res s' =>
    rw [hd] at h1
    cases res with
    | ok v =>
      obtain ⟨y, h3, h4⟩ := hf v s'
      exact ⟨_, took_trans h1 h3, by simp; omega⟩
    | err e => exact ⟨x, h1, by omega⟩
    | panic => exact ⟨x, h1, by omega⟩
    | fuel => exact ⟨x, h1, by omega⟩

theorem TakesLe.ite {ε α : Type} {n : Nat} {c : Prop} [Decidable c] {a b : Dec Src ε α}
    (ha : TakesLe n a) (hb : TakesLe n b) : TakesLe n (if c then a else b) := by
  split <;> assumption

theorem TakesLe.readExactLoop : ∀ f n acc, TakesLe n (readExactLoop (R := Src) f n acc)
  | 0, n, _ => fun _ => ⟨[], rfl, by simp⟩
  | f + 1, n, acc => by
    intro s
    simp only [Wadec.readExactLoop]
    split
    · exact ⟨[], rfl, by simp⟩
    · obtain ⟨bs, h1, h2, h3, h4⟩ := Src.read_took n s
      split <;> rename_i hr <;> rw [hr] at h1 h3 h4
      · exact ⟨bs, h1, h2⟩
      · have := h3 _ rfl
        obtain ⟨y, h5, h6⟩ := TakesLe.readExactLoop f _ _ _
        subst this
        exact ⟨_, took_trans h1 h5, by simp only [List.length_append]; omega⟩
      · have := h4 _ rfl
        obtain ⟨y, h5, h6⟩ := TakesLe.readExactLoop f _ _ _
        subst this
        exact ⟨_, took_trans h1 h5, by simpa using h6⟩
      · exact ⟨bs, h1, h2⟩

theorem TakesLe.readExact {n : Nat} : TakesLe n (readExact (R := Src) n) :=
  fun s => TakesLe.readExactLoop _ n [] s

theorem TakesLe.readByte : TakesLe 1 (readByte (R := Src)) := by
  refine TakesLe.bind (m := 0) readExact fun v => ?_
  split
  · exact pure
  · exact panic

theorem TakesLe.u32Loop : ∀ n i res sh, TakesLe n (decodeU32Loop (R := Src) n i res sh)
  | 0, _, _, _ => TakesLe.err
  | n + 1, i, res, sh => by
    suffices h : TakesLe (1 + n) (decodeU32Loop (R := Src) (n + 1) i res sh) by rwa [Nat.add_comm] at h
    refine TakesLe.bind (TakesLe.mapErr TakesLe.readByte) fun b => ?_
    refine TakesLe.ite TakesLe.panic ?_
    exact TakesLe.ite (TakesLe.ite TakesLe.err TakesLe.pure) (TakesLe.ite TakesLe.panic (u32Loop n _ _ _))

theorem TakesLe.u32 : TakesLe 5 (decodeU32 (R := Src)) := TakesLe.u32Loop _ _ _ _

theorem TakesLe.headerRest {b : UInt8} : TakesLe 5 (sectionHeaderRest (R := Src) b) := by
  unfold sectionHeaderRest
  split
  · exact TakesLe.err
  · exact TakesLe.bind (m := 0) (TakesLe.mapErr TakesLe.u32) fun _ => TakesLe.pure

theorem TakesLe.header : TakesLe 6 (decodeSectionHeader (R := Src)) := by
  intro s
  obtain ⟨x, h1, h2⟩ := TakesLe.readByte s
  simp only [decodeSectionHeader]
  split <;> rename_i hr <;> rw [hr] at h1
  · obtain ⟨y, h3, h4⟩ := TakesLe.headerRest (b := _) _
    exact ⟨_, took_trans h1 h3, by simp; omega⟩
  · split <;> exact ⟨x, h1, by omega⟩
  · exact ⟨x, h1, by omega⟩
  · exact ⟨x, h1, by omega⟩

/-- C54: an input that is refused because of its first eight bytes is not read any further. -/
theorem c54_preamble {s s' : Src} {x : ParsePreambleError}
    (h : decodeModule s = (.err (.ParsePreamble x), s')) : ∃ taken, Took s s' taken ∧ taken.length ≤ 8 := by
  have hm := module_err h
  generalize he : DecodeModuleError.ParsePreamble x = e at hm
  cases hm with
  | preamble hp =>
    cases he
    have : TakesLe 8 (parsePreamble (R := Src)) :=
      TakesLe.bind (m := 0) (TakesLe.mapErr TakesLe.readExact) fun _ => TakesLe.ite TakesLe.err TakesLe.pure
    obtain ⟨bs, h1, h2⟩ := this s
    rw [hp] at h1
    exact ⟨bs, h1, h2⟩
  | header => cases he
  | sect hb hacc h1 a hs =>
    cases hs with
    | duplicate => cases he
    | order => cases he
    | body ht ho hd =>
      cases body_err hd with
      | inner hi => rw [← he] at hi; cases hi
      | code => cases he
      | data => cases he
    | size => cases he
    | customSize => cases he
  | final _ _ _ _ hf => cases hf <;> cases he

/-- C54: an input that is refused because of a section header is read at most six bytes (an id and
a `u32` of five bytes) into that header. -/
theorem c54_header {s s' : Src} {x : DecodeSectionHeaderError}
    (h : decodeModule s = (.err (.DecodeSectionHeader x), s')) :
    ∃ secs rest taken, Behind (avail s) secs rest ∧ Took s s' taken ∧
      taken.length + rest.length ≤ (avail s).length + 6 := by
  have hm := module_err h
  generalize he : DecodeModuleError.DecodeSectionHeader x = e at hm
  cases hm with
  | preamble => cases he
  | @header _ secs bs r1 a hb hacc hd =>
    cases he
    obtain ⟨y, h1, h2⟩ := TakesLe.header r1
    rw [hd] at h1
    have hbe := Behind.mk (rest := avail r1) hb hacc
    have ha := adv_avail a
    refine ⟨secs.map Prod.snd, avail r1, _, ?_, took_trans (adv_took a) h1, ?_⟩
    · rw [ha]
      simpa using hbe
    · rw [ha]
      simp only [List.length_append]
      omega
  | sect hb hacc h1 a hs =>
    cases hs with
    | duplicate => cases he
    | order => cases he
    | body ht ho hd =>
      cases body_err hd with
      | inner hi => rw [← he] at hi; cases hi
      | code => cases he
      | data => cases he
    | size => cases he
    | customSize => cases he
  | final _ _ _ _ hf => cases hf <;> cases he

/-- At the end of the input nothing is taken from the reader. -/
theorem readExactLoop_end : ∀ f n acc (s : Src), avail s = [] →
    Took s (readExactLoop f n acc s).2 []
  | 0, _, _, _, _ => rfl
  | f + 1, n, acc, s, hav => by
    simp only [Wadec.readExactLoop]
    split
    · rfl
    · rename_i hn
      obtain ⟨bs, h1, h2, h3, h4⟩ := Src.read_took n s
      split <;> rename_i hr <;> rw [hr] at h1 h3 h4
      · have := h3 _ rfl
        subst this
        exact h1
      · have := adv_avail (read_data (by omega) hr).2.1
        rw [hav] at this
        cases this
      · have := h4 _ rfl
        subst this
        have h5 := adv_avail (read_int (by omega) hr).1
        rw [hav] at h5
        exact took_trans h1 (readExactLoop_end f _ _ _ h5.symm)
      · have := h4 _ rfl
        subst this
        exact h1

theorem readByte_end {s : Src} (hav : avail s = []) : Took s (readByte s).2 [] := by
  have := readExactLoop_end (Read.weight s + 1) 1 [] s hav
  simp only [readByte, Bind.bind, Dec.bind]
  cases hd : readExact 1 s with
  | mk res s' =>
    have h : readExactLoop (Read.weight s + 1) 1 [] s = (res, s') := hd
    rw [h] at this
    cases res with
    | ok v => simp only; split <;> exact this
    | err e => exact this
    | panic => exact this
    | fuel => exact this

/-- C54: if the sections of an input may open a module and the input ends after one of them, exactly
the available bytes have been taken, whatever the verdict is. -/
theorem c54_end {s : Src} {secs : List Section} (h : AtEnd (avail s) secs) :
    Took s (decodeModule s).2 (avail s) := by
  generalize ha : avail s = inp at h
  cases h with
  | @mk bs secs hb hacc =>
    obtain ⟨r1, n, a1, av1, hn, e1⟩ := module_steps (rest := []) hb hacc (by rw [ha, List.append_nil])
    rw [e1]
    match n, hn with
    | n + 1, _ =>
      have hr := readByte_end av1
      obtain ⟨r2, e2⟩ := header_nil av1
      have hx : Took r1 (decodeSectionHeader r1).2 [] := by
        have hb := Ends.readByte (R := Src) r1 av1
        simp only [decodeSectionHeader]
        split <;> rename_i hq <;> rw [hq] at hr
        · obtain ⟨_, hb⟩ := hb
          rw [hq] at hb
          cases hb
        · split <;> exact hr
        · exact hr
        · exact hr
      rw [e2] at hx
      have hfin : ∀ st r, (finalChecks st (r : Src)).2 = r := by
        intro st r
        rcases final_cases (R := Src) (S := Src) st with ⟨m, hm, _⟩ | ⟨e, he, _⟩
        · rw [hm]; rfl
        · rw [he]; rfl
      have ht := took_trans (adv_took a1) hx
      rw [List.append_nil] at ht
      simp only at ht
      have hsec : (sectionLoop (n + 1) (stateOf secs) r1).2 = r2 := by
        simp only [sectionLoop, Bind.bind, Dec.bind, Dec.mapErr, e2]
        by_cases hf : (fin r1).toErr = .unexpectedEof
        · rw [if_pos hf]; rfl
        · rw [if_neg hf]
      have hall : ((do let st ← sectionLoop (n + 1) (stateOf secs); finalChecks st) r1).2 = r2 := by
        simp only [Bind.bind, Dec.bind]
        rcases hq : sectionLoop (n + 1) (stateOf secs) r1 with ⟨res, r3⟩
        rw [hq] at hsec
        cases res with
        | ok v => simp only at hsec ⊢; rw [hfin]; exact hsec
        | err e => exact hsec
        | panic => exact hsec
        | fuel => exact hsec
      rw [hall]
      exact ht

/-- C54: when a module is returned, exactly the bytes up to the end of the input have been taken. -/
theorem c54_ok {s s' : Src} {m : Module} (h : decodeModule s = (.ok m, s')) : Took s s' (avail s) := by
  have hb := (module_sound h).1
  have he : ∃ secs, AtEnd (avail s) secs := by
    generalize avail s = inp at hb
    cases hb with
    | mk hb hw => exact ⟨_, .mk hb (Wadec.WellFormed.acceptable hw)⟩
  obtain ⟨secs, he⟩ := he
  have := c54_end he
  rwa [h] at this

/-! ### Instances -/

/-- an import section of 13 bytes with a bad second import, followed by anything -/
def badImportContents : Bytes := [0x02, 0x01, 0x61, 0x01, 0x62, 0x03, 0x7F, 0x00,
  0x01, 0x61, 0x01, 0x62, 0x07]

theorem badImport_at (x : Bytes) : AtSection ((preamble ++ [0x02, 0x0D]) ++ (badImportContents ++ x)) []
    .Import 13 (badImportContents ++ x) :=
  .mk (bs := []) (b1 := [0x0D]) (secs := []) (k := .Import) (size := 13) .nil Acceptable.nil
    ((c07_u32 13 _).2 ⟨1, by decide⟩)

theorem badImport_bad : ¬ ∃ sec, sec.kind = .Import ∧ BContents badImportContents sec ∧
    Acceptable ([] ++ [sec]) := by
  rintro ⟨sec, hk, hc, _⟩
  have h : (match (decodeSectionBody .Import (stateOf []) (Src.ofBytes badImportContents)).1 with
    | .ok _ => false
    | _ => true) = true := by decide +kernel
  obtain ⟨r1, h1, _⟩ := body_runs (R := Src) (st := stateOf []) (by rw [hk]; decide) hc
    (by cases sec <;> first | trivial | cases hk) (Src.ofBytes badImportContents) []
    (by rw [avail_ofBytes, List.append_nil])
  rw [hk] at h1
  rw [h1] at h
  cases h

/-- whatever stands behind that section, the error is the same -/
example (x y : Bytes) : ∃ e r' s',
    decodeModule (Src.ofBytes ((preamble ++ [0x02, 0x0D]) ++ (badImportContents ++ x))) = (.err e, r') ∧
    decodeModule (Src.ofBytes ((preamble ++ [0x02, 0x0D]) ++ (badImportContents ++ y))) = (.err e, s') :=
  c53_isolated (badImport_at x) rfl badImport_bad (avail_ofBytes _) (avail_ofBytes _)

/-- and nothing behind it is read -/
example (x : Bytes) : ∃ e s' taken,
    decodeModule (Src.ofBytes ((preamble ++ [0x02, 0x0D]) ++ (badImportContents ++ x))) = (.err e, s') ∧
    Took (Src.ofBytes ((preamble ++ [0x02, 0x0D]) ++ (badImportContents ++ x))) s' taken ∧
    taken.length ≤ 23 := by
  generalize hd : decodeModule (Src.ofBytes ((preamble ++ [0x02, 0x0D]) ++ (badImportContents ++ x))) = o
  obtain ⟨res, s'⟩ := o
  have hat := badImport_at x
  rw [← avail_ofBytes ((preamble ++ [0x02, 0x0D]) ++ (badImportContents ++ x))] at hat
  rcases c54_section hat hd with ⟨c, sec, rest', h1, h2, h3, h4, h5⟩ | ⟨⟨e, rfl⟩, taken, h1, h2⟩
  · have : badImportContents = c := (List.append_inj h1 (by rw [h4]; rfl)).1
    subst this
    exact absurd ⟨sec, h2, h3, h5⟩ badImport_bad
  · refine ⟨e, s', taken, rfl, h1, ?_⟩
    rw [avail_ofBytes] at h2
    have : (13 : UInt32).toNat = 13 := rfl
    simp only [List.length_append, this] at h2
    have h3 : (preamble ++ [0x02, 0x0D]).length = 10 := rfl
    simp only [List.length_append] at h3
    omega

end Wadec
