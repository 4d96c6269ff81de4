import Verif.Model.OwnBuf
import Verif.Spec.OwnBuf
import Verif.Proof.OwnExact
import Verif.Proof.StdReaders

/-! C87: reading to the end with `read` and `read_buf` in turns is reading to the end. -/

namespace Wadec

open LawfulRead Spec

variable {R S : Type} [LawfulRead R] [LawfulRead S] {own : Nat → R → Except IoError (List UInt8) × R}

/-- The reader, with `read` and `read_buf` in turns in place of `read`. -/
structure Turns (hb : Buffers own) (pick : R → Bool) where
  it : R

instance turns_read (hb : Buffers own) (pick : R → Bool) : Read (Turns hb pick) where
  read n r := match if pick r.it then Read.read n r.it else own n r.it with | (x, i) => (x, ⟨i⟩)
  weight r := Read.weight r.it
  reserve n r := ⟨Read.reserve n r.it⟩
  room r := Read.room r.it

theorem turns_eq {hb : Buffers own} {pick : R → Bool} {n : Nat} {r : Turns hb pick} {x : Except IoError (List UInt8)} {r' : Turns hb pick}
    (h : Read.read n r = (x, r')) : Read.read n r.it = (x, r'.it) ∨ own n r.it = (x, r'.it) := by
  simp only [Read.read] at h
  by_cases hp : pick r.it
  · simp only [hp, if_true] at h
    left
    generalize Read.read n r.it = o at h ⊢
    obtain ⟨a, b⟩ := o
    cases h; rfl
  · simp only [hp] at h
    right
    generalize own n r.it = o at h ⊢
    obtain ⟨a, b⟩ := o
    cases h; rfl

instance turns_lawful (hb : Buffers own) (pick : R → Bool) : LawfulRead (Turns hb pick) where
  toRead := turns_read hb pick
  avail r := avail r.it
  fin r := fin r.it
  Adv bs r r' := Adv bs r.it r'.it
  adv_nil _ := adv_nil _
  adv_trans := adv_trans
  adv_avail := adv_avail
  adv_fin := adv_fin
  fin_ne _ := fin_ne _
  avail_le r := avail_le r.it
  adv_reserve n r := adv_reserve n r.it
  read_data hn h := (turns_eq h).elim (read_data hn) (hb.data hn)
  read_eof hn h := (turns_eq h).elim (read_eof hn) (hb.eof hn)
  read_int hn h := (turns_eq h).elim (read_int hn) (hb.int hn)
  read_err hn he h := (turns_eq h).elim (read_err hn he) (hb.err hn he)

/-- The two loops are the same. -/
theorem loopBy_turns (hb : Buffers own) (pick : R → Bool) : ∀ f acc (t : Take R),
    readToEndLoopBy own pick f acc t =
      match readToEndLoop f acc (⟨t.limit, ⟨t.inner⟩⟩ : Take (Turns hb pick)) with | (o, t') => (o, ⟨t'.limit, t'.inner.it⟩)
  | 0, _, _ => rfl
  | f + 1, acc, ⟨l, i⟩ => by
    have hstep : (if pick i then Take.read (Read.room (⟨l, i⟩ : Take R) + 1) (⟨l, i⟩ : Take R) else Take.readBuf own (Read.room (⟨l, i⟩ : Take R) + 1) ⟨l, i⟩) =
        match Read.read (Read.room (⟨l, ⟨i⟩⟩ : Take (Turns hb pick)) + 1) (⟨l, ⟨i⟩⟩ : Take (Turns hb pick)) with
        | (o, t') => (o, ⟨t'.limit, t'.inner.it⟩) := by
      simp only [Read.read, Take.read, Take.readBuf, Read.room]
      by_cases h0 : l = 0
      · simp [h0]
      · by_cases hp : pick i
        · simp only [hp, h0, if_true, if_false]
          generalize Read.read (min (Read.room i + 1) l) i = o
          obtain ⟨a, b⟩ := o
          cases a <;> rfl
        · simp only [hp, h0, if_false]
          generalize own (min (Read.room i + 1) l) i = o
          obtain ⟨a, b⟩ := o
          cases a <;> rfl
    simp only [readToEndLoopBy, readToEndLoop, hstep]
    generalize Read.read (Read.room (⟨l, ⟨i⟩⟩ : Take (Turns hb pick)) + 1) (⟨l, ⟨i⟩⟩ : Take (Turns hb pick)) = o
    obtain ⟨a, b⟩ := o
    match a with
    | .ok [] => rfl
    | .ok (x :: xs) => exact loopBy_turns hb pick f _ _
    | .error .interrupted => exact loopBy_turns hb pick f _ _
    | .error .unexpectedEof => rfl
    | .error (.other _) => rfl

/-- What reading to the end comes to, by `read_buf` or not. -/
theorem readToEndBy_spec (hb : Buffers own) (pick : R → Bool) (t : Take R) :
    (fin t = .eof → ∃ t', readToEndBy own pick t = (.ok (avail t), t') ∧ t'.limit = t.limit - (avail t).length ∧
      (t'.limit = 0 → Adv (avail t) t t')) ∧
    ∀ e, fin t = .fail e → ∃ t', readToEndBy own pick t = (.err e, t') := by
  have hl := loopBy_turns hb pick (Read.weight t + 1) [] t
  have h1 := readToEndLoop_take (Read.weight t + 1) [] (⟨t.limit, ⟨t.inner⟩⟩ : Take (Turns hb pick)) (Nat.lt_succ_self _)
  have h2 := (readToEndLoop_spec (Read.weight t + 1) [] (⟨t.limit, ⟨t.inner⟩⟩ : Take (Turns hb pick)) (Nat.lt_succ_self _)).2
  refine ⟨fun hf => ?_, fun e hf => ?_⟩
  · obtain ⟨t', h3, h4, h5⟩ := h1 hf
    refine ⟨⟨t'.limit, t'.inner.it⟩, ?_, h4, fun h => h5 h⟩
    simp only [readToEndBy]
    rw [hl, h3]
    rfl
  · obtain ⟨t', h3⟩ := h2 e hf
    refine ⟨⟨t'.limit, t'.inner.it⟩, ?_⟩
    simp only [readToEndBy]
    rw [hl, h3]

/-! ### Sections -/

/-- The same result; of values also the same limit, and if that is 0 the same content behind it. -/
def Level {ε α : Type} (o o' : Res ε α × Take R) : Prop :=
  o.1 = o'.1 ∧ ∀ v, o.1 = .ok v → o.2.limit = o'.2.limit ∧
    (o.2.limit = 0 → avail o.2.inner = avail o'.2.inner ∧ fin o.2.inner = fin o'.2.inner)

theorem Level.refl {ε α : Type} (o : Res ε α × Take R) : Level o o := ⟨rfl, fun _ _ => ⟨rfl, fun _ => ⟨rfl, rfl⟩⟩⟩

theorem readToEndBy_level (hb : Buffers own) (pick : R → Bool) (t : Take R) :
    Level (readToEndBy own pick t) (readToEnd t) := by
  have h1 := readToEndBy_spec hb pick t
  have h2 := readToEndLoop_take (Read.weight t + 1) [] t (Nat.lt_succ_self _)
  have h3 := (readToEndLoop_spec (Read.weight t + 1) [] t (Nat.lt_succ_self _)).2
  have hs : readToEnd t = readToEndLoop (Read.weight t + 1) [] t := rfl
  cases hf : fin t with
  | eof =>
    obtain ⟨u, e1, l1, a1⟩ := h1.1 hf
    obtain ⟨w, e2, l2, a2⟩ := h2 hf
    rw [hs, e1, e2]
    refine ⟨rfl, fun _ _ => ⟨by rw [l1, l2], fun h0 => ?_⟩⟩
    have b1 := (a1 h0).2
    have b2 := (a2 (by rw [l2, ← l1]; exact h0)).2
    have c1 := adv_avail b1
    rw [adv_avail b2] at c1
    exact ⟨(List.append_cancel_left c1).symm, by rw [adv_fin b1, adv_fin b2]⟩
  | fail e =>
    obtain ⟨u, e1⟩ := h1.2 e hf
    obtain ⟨w, e2⟩ := h3 e hf
    rw [hs, e1, e2]
    exact ⟨rfl, fun _ h => by cases h⟩

theorem bodyBy_level (hb : Buffers own) (pick : R → Bool) (k : SectionKind) (st : LoopState) (t : Take R) :
    Level (decodeSectionBodyBy own pick k st t) (decodeSectionBody k st t) := by
  cases k with
  | Custom =>
    simp only [decodeSectionBodyBy, decodeSectionBody, decodeSectionCustomBy, decodeSectionCustom, Bind.bind, Dec.bind, Dec.mapErr]
    generalize decodeName t = o
    obtain ⟨o, t1⟩ := o
    cases o with
    | ok nm =>
      have h := readToEndBy_level hb pick t1
      simp only
      generalize readToEndBy own pick t1 = o at h ⊢
      generalize readToEnd t1 = o' at h ⊢
      obtain ⟨o, t2⟩ := o
      obtain ⟨o', t2'⟩ := o'
      obtain ⟨h1, h2⟩ := h
      simp only at h1 h2
      subst h1
      cases o with
      | ok c => exact ⟨rfl, fun _ _ => h2 c rfl⟩
      | _ => exact ⟨rfl, fun _ h => by cases h⟩
    | _ => exact ⟨rfl, fun _ h => by cases h⟩
  | _ => exact Level.refl _

/-- On one reader. -/
theorem sectionBy_same (hb : Buffers own) (pick : R → Bool) (h : SectionHeader) (st : LoopState) (r : R) :
    (decodeSectionBy own pick h st r).1 = (decodeSection h st r).1 ∧
    ∀ v, (decodeSectionBy own pick h st r).1 = .ok v →
      avail (decodeSectionBy own pick h st r).2 = avail (decodeSection h st r).2 ∧
      fin (decodeSectionBy own pick h st r).2 = fin (decodeSection h st r).2 := by
  simp only [decodeSectionBy, decodeSection, Bind.bind, Dec.bind]
  generalize (st.module.validateSectionKindExpected h.kind : Dec R DecodeModuleError Unit) r = o
  obtain ⟨o, r1⟩ := o
  cases o with
  | ok _ =>
    have hl := bodyBy_level hb pick h.kind st (⟨h.size.toNat, r1⟩ : Take R)
    simp only [Dec.withTake]
    generalize decodeSectionBodyBy own pick h.kind st (⟨h.size.toNat, r1⟩ : Take R) = o at hl ⊢
    generalize decodeSectionBody h.kind st (⟨h.size.toNat, r1⟩ : Take R) = o' at hl ⊢
    obtain ⟨o, t⟩ := o
    obtain ⟨o', t'⟩ := o'
    obtain ⟨h1, h2⟩ := hl
    simp only at h1 h2
    subst h1
    cases o with
    | ok v =>
      obtain ⟨h3, h4⟩ := h2 v rfl
      simp only [h3]
      by_cases h0 : t'.limit = 0
      · rw [if_neg (c := t'.limit ≠ 0) (fun h => h h0)]
        exact ⟨rfl, fun _ _ => h4 (by rw [h3]; exact h0)⟩
      · rw [if_pos (c := t'.limit ≠ 0) h0]
        exact ⟨rfl, fun _ h => by cases h⟩
    | _ => exact ⟨rfl, fun _ h => by cases h⟩
  | _ => exact ⟨rfl, fun _ h => by cases h⟩

theorem sectionBy_twin (hb : Buffers own) (pick : R → Bool) (h : SectionHeader) (st : LoopState) :
    Twin (decodeSectionBy own pick h st) (decodeSection h st : Dec S _ _) := by
  intro r s h1 h2
  have h3 := sectionBy_same hb pick h st r
  have h4 := section_twin (R := R) (S := S) h st r s h1 h2
  refine ⟨h3.1.trans h4.1, fun v hv => ?_⟩
  have h5 := h3.2 v hv
  have h6 := h4.2 v (h3.1.symm.trans hv)
  exact ⟨h5.1.trans h6.1, h5.2.trans h6.2⟩

/-! ### The module -/

theorem loopOwn_twin {x : Nat → Dec R IoError (List UInt8)} {y : Nat → Dec S IoError (List UInt8)} (hb : Buffers own)
    (pick : R → Bool) (hx : Fills x) (hy : Fills y) : ∀ n st (r : R) (s : S), avail r = avail s → fin r = fin s →
    (sectionLoopOwn own pick x n st r).1 = (sectionLoopBy y n st s).1
  | 0, _, _, _, _, _ => rfl
  | n + 1, st, r, s, h1, h2 => by
    have h := header_twin hx hy h1 h2
    simp only [sectionLoopOwn, sectionLoopBy, Bind.bind, Dec.bind, Dec.mapErr]
    generalize decodeSectionHeaderBy x r = o at h
    generalize decodeSectionHeaderBy y s = o' at h
    obtain ⟨o, r1⟩ := o
    obtain ⟨o', s1⟩ := o'
    obtain ⟨h3, h4⟩ := h
    simp only at h3 h4
    subst h3
    match o, h4 with
    | .ok none, _ => rfl
    | .ok (some hd), h4 =>
      have h5 := sectionBy_twin (S := S) hb pick hd st r1 s1 (h4 hd rfl).1 (h4 hd rfl).2
      simp only [Dec.bind]
      generalize decodeSectionBy own pick hd st r1 = o at h5
      generalize decodeSection hd st s1 = o' at h5
      obtain ⟨o, r2⟩ := o
      obtain ⟨o', s2⟩ := o'
      obtain ⟨h6, h7⟩ := h5
      simp only at h6 h7
      subst h6
      cases o with
      | ok v => exact loopOwn_twin hb pick hx hy n v r2 s2 (h7 v rfl).1 (h7 v rfl).2
      | _ => rfl
    | .err e, _ => rfl
    | .panic, _ => rfl
    | .fuel, _ => rfl

/-- On the same reader, or one of the same weight. -/
theorem moduleOwn_twin {x : Nat → Dec R IoError (List UInt8)} {y : Nat → Dec S IoError (List UInt8)} (hb : Buffers own)
    (pick : R → Bool) (hx : Fills x) (hy : Fills y) {r : R} {s : S} (h1 : avail r = avail s) (h2 : fin r = fin s)
    (hw : Read.weight r = Read.weight s) : (decodeModuleOwn own pick x r).1 = (decodeModuleBy y s).1 := by
  have hp : Twin (parsePreambleBy x) (parsePreambleBy y) :=
    Twin.bind (Twin.mapErr (hx.twin hy (by omega))) fun _ => Twin.ite Twin.err Twin.pure
  have h := hp r s h1 h2
  simp only [decodeModuleOwn, decodeModuleBy, Bind.bind, Dec.bind, Dec.mapErr, hw]
  generalize parsePreambleBy x r = o at h
  generalize parsePreambleBy y s = o' at h
  obtain ⟨o, r1⟩ := o
  obtain ⟨o', s1⟩ := o'
  obtain ⟨h3, h4⟩ := h
  simp only at h3 h4
  subst h3
  cases o with
  | ok v =>
    have h5 := loopOwn_twin hb pick hx hy (Read.weight s + 1) ⟨Module.default, false, false⟩ r1 s1 (h4 v rfl).1 (h4 v rfl).2
    simp only
    generalize sectionLoopOwn own pick x (Read.weight s + 1) ⟨Module.default, false, false⟩ r1 = o at h5
    generalize sectionLoopBy y (Read.weight s + 1) ⟨Module.default, false, false⟩ s1 = o' at h5
    obtain ⟨o, r2⟩ := o
    obtain ⟨o', s2⟩ := o'
    simp only at h5
    subst h5
    cases o with
    | ok st =>
      simp only [finalChecks]
      split
      · rfl
      · split
        · rfl
        · split <;> rfl
    | _ => rfl
  | _ => rfl

/-! ### The default `read_buf` -/

theorem readBuf_default {R : Type} [Read R] (n : Nat) (t : Take R) : Take.readBuf Read.read n t = Take.read n t := rfl

theorem readToEndBy_default {R : Type} [Read R] (pick : R → Bool) : readToEndBy (R := R) Read.read pick = readToEnd := by
  have h : ∀ f acc, readToEndLoopBy (R := R) Read.read pick f acc = readToEndLoop f acc := by
    intro f
    induction f with
    | zero => intro acc; rfl
    | succ f ih =>
      intro acc
      funext t
      simp only [readToEndLoopBy, readToEndLoop, readBuf_default, ite_self, ih, Read.read]
      generalize Take.read (Read.room t + 1) t = o
      obtain ⟨o, t'⟩ := o
      rcases o with e | (_ | ⟨b, bs⟩)
      · cases e <;> rfl
      · rfl
      · rfl
  funext t
  simp only [readToEndBy, readToEnd, h]

theorem ownBy_default {R : Type} [Read R] (pick : R → Bool) (x : Nat → Dec R IoError (List UInt8)) :
    decodeModuleOwn Read.read pick x = decodeModuleBy x := by
  have hs : ∀ h st, decodeSectionBy (R := R) Read.read pick h st = decodeSection h st := by
    intro h st
    have : decodeSectionBodyBy (R := R) Read.read pick h.kind st = decodeSectionBody h.kind st := by
      cases h.kind <;> simp only [decodeSectionBodyBy, decodeSectionBody, decodeSectionCustomBy, decodeSectionCustom, readToEndBy_default]
    simp only [decodeSectionBy, decodeSection, this]
  have hl : ∀ n st, sectionLoopOwn (R := R) Read.read pick x n st = sectionLoopBy x n st := by
    intro n
    induction n with
    | zero => intro st; rfl
    | succ n ih =>
      intro st
      simp only [sectionLoopOwn, sectionLoopBy, hs, ih]
      rfl
  funext r
  simp only [decodeModuleOwn, decodeModuleBy, hl]

theorem default_buffers : Buffers (R := R) Read.read where
  data := read_data
  eof := read_eof
  int := read_int
  err := read_err

/-! ### Readers on readers -/

/-- A `read_buf` that is another reader's `read` in disguise. -/
theorem Buffers.via {own' : Nat → R → Except IoError (List UInt8) × R} (f : S → R) (g : R → S)
    (h : ∀ n r, own' n r = match Read.read n (g r) with | (o, t) => (o, f t))
    (ha : ∀ r, avail (g r) = avail r) (hf : ∀ r, fin (g r) = fin r)
    (hA : ∀ {bs r t}, Adv bs (g r) t → Adv bs r (f t))
    (hw : ∀ r, Read.weight (g r) = Read.weight r) (hw' : ∀ t, Read.weight (f t) = Read.weight t) : Buffers own' := by
  have key : ∀ {n r x r'}, own' n r = (x, r') → ∃ t, Read.read n (g r) = (x, t) ∧ f t = r' := by
    intro n r x r' h1
    rw [h] at h1
    generalize Read.read n (g r) = o at h1 ⊢
    obtain ⟨o, t⟩ := o
    cases h1
    exact ⟨t, rfl, rfl⟩
  refine ⟨fun hn h1 => ?_, fun hn h1 => ?_, fun hn h1 => ?_, fun hn he h1 => ?_⟩
  · obtain ⟨t, h2, rfl⟩ := key h1
    obtain ⟨h3, h4, h5⟩ := read_data hn h2
    exact ⟨h3, hA h4, by rw [hw', ← hw]; exact h5⟩
  · obtain ⟨t, h2, rfl⟩ := key h1
    rw [← ha, ← hf]
    exact read_eof hn h2
  · obtain ⟨t, h2, rfl⟩ := key h1
    obtain ⟨h4, h5⟩ := read_int hn h2
    exact ⟨hA h4, by rw [hw', ← hw]; exact h5⟩
  · obtain ⟨t, h2, rfl⟩ := key h1
    rw [← ha, ← hf]
    exact read_err hn he h2

theorem Buffers.take (hb : Buffers own) : Buffers (Take.readBuf own) := by
  refine Buffers.via (S := Take (Turns hb fun _ => false)) (fun t => ⟨t.limit, t.inner.it⟩) (fun t => ⟨t.limit, ⟨t.inner⟩⟩)
    ?_ (fun _ => rfl) (fun _ => rfl) (fun h => h) (fun _ => rfl) (fun _ => rfl)
  rintro n ⟨l, i⟩
  simp only [Take.readBuf, Read.read, Take.read]
  by_cases h0 : l = 0
  · simp [h0]
  · simp only [h0, if_false]
    generalize own (min n l) i = o
    obtain ⟨a, b⟩ := o
    cases a <;> rfl

theorem Buffers.bufReader (hb : Buffers own) : Buffers (BufReader.readBuf own) := by
  refine Buffers.via (S := BufReader (Turns hb fun _ => false)) (fun s => ⟨s.cap, s.buf, s.inner.it⟩) (fun s => ⟨s.cap, s.buf, ⟨s.inner⟩⟩)
    ?_ (fun _ => rfl) (fun _ => rfl) (fun h => ?_) (fun _ => rfl) (fun _ => rfl)
  · rintro n ⟨cap, buf, i⟩
    simp only [BufReader.readBuf, Read.read, BufReader.read]
    cases buf with
    | nil =>
      simp only
      by_cases h0 : cap ≤ n
      · simp only [h0, if_true]
        generalize own n i = o
        obtain ⟨a, b⟩ := o
        rfl
      · simp only [h0, if_false]
        generalize own cap i = o
        obtain ⟨a, b⟩ := o
        cases a <;> rfl
    | cons b bs => rfl
  · obtain ⟨x, h1, h2⟩ := h
    exact ⟨x, h1, h2⟩

end Wadec
