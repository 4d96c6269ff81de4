import Verif.Model.OwnExact
import Verif.Spec.OwnExact
import Verif.Proof.ModuleG

/-! C81: two decoders on two readers with the same content. -/

namespace Wadec

open LawfulRead Spec

/-! ### The default -/

section
variable {R : Type} [Read R]

theorem readByteBy_default : readByteBy (R := R) readExact = readByte := rfl

theorem u32LoopBy_default : ∀ rem i res sh,
    decodeU32LoopBy (R := R) readExact rem i res sh = decodeU32Loop rem i res sh
  | 0, _, _, _ => rfl
  | rem + 1, i, res, sh => by
    simp only [decodeU32LoopBy, decodeU32Loop, readByteBy_default, u32LoopBy_default rem]

theorem headerBy_default : decodeSectionHeaderBy (R := R) readExact = decodeSectionHeader := by
  have h : ∀ id, sectionHeaderRestBy (R := R) readExact id = sectionHeaderRest id := by
    intro id
    simp only [sectionHeaderRestBy, sectionHeaderRest, decodeU32By, decodeU32, u32LoopBy_default]
    rfl
  funext r
  simp only [decodeSectionHeaderBy, decodeSectionHeader, readByteBy_default, h]
  rfl

theorem loopBy_default : ∀ n st, sectionLoopBy (R := R) readExact n st = sectionLoop n st
  | 0, _ => rfl
  | n + 1, st => by
    simp only [sectionLoopBy, sectionLoop, headerBy_default, loopBy_default n]
    rfl

/-- With the default `read_exact` these are the functions of Model/Module. -/
theorem by_default : decodeModuleBy (R := R) readExact = decodeModule := by
  funext r
  simp only [decodeModuleBy, decodeModule, loopBy_default]
  rfl

end

/-! ### Any other -/

variable {R S ε ε' α β : Type} [LawfulRead R] [LawfulRead S]

/-- On readers with the same content `d` and `d'` return the same, and if it is a value they leave the
same content. -/
def Twin (d : Dec R ε α) (d' : Dec S ε α) : Prop :=
  ∀ r s, avail r = avail s → fin r = fin s → (d r).1 = (d' s).1 ∧
    ∀ v, (d r).1 = .ok v → avail (d r).2 = avail (d' s).2 ∧ fin (d r).2 = fin (d' s).2

namespace Twin

theorem pure {v : α} : Twin (Pure.pure v : Dec R ε α) (Pure.pure v : Dec S ε α) :=
  fun _ _ h1 h2 => ⟨rfl, fun _ _ => ⟨h1, h2⟩⟩

theorem err {e : ε} : Twin (Dec.err e : Dec R ε α) (Dec.err e : Dec S ε α) :=
  fun _ _ _ _ => ⟨rfl, fun _ h => by cases h⟩

theorem panic : Twin (Dec.panic : Dec R ε α) (Dec.panic : Dec S ε α) :=
  fun _ _ _ _ => ⟨rfl, fun _ h => by cases h⟩

theorem fuel : Twin (Dec.outOfFuel : Dec R ε α) (Dec.outOfFuel : Dec S ε α) :=
  fun _ _ _ _ => ⟨rfl, fun _ h => by cases h⟩

theorem bind {d : Dec R ε α} {d' : Dec S ε α} {f : α → Dec R ε β} {f' : α → Dec S ε β}
    (hd : Twin d d') (hf : ∀ v, Twin (f v) (f' v)) : Twin (d >>= f) (d' >>= f') := by
  intro r s h1 h2
  have h := hd r s h1 h2
  simp only [Bind.bind, Dec.bind]
  generalize d r = o at h
  generalize d' s = o' at h
  obtain ⟨o, r1⟩ := o
  obtain ⟨o', s1⟩ := o'
  obtain ⟨h3, h4⟩ := h
  simp only at h3 h4
  subst h3
  cases o with
  | ok v => exact hf v r1 s1 (h4 v rfl).1 (h4 v rfl).2
  | _ => exact ⟨rfl, fun _ h => by cases h⟩

theorem mapErr {d : Dec R ε α} {d' : Dec S ε α} {f : ε → ε'} (hd : Twin d d') :
    Twin (d.mapErr f) (d'.mapErr f) := by
  intro r s h1 h2
  have h := hd r s h1 h2
  simp only [Dec.mapErr]
  generalize d r = o at h
  generalize d' s = o' at h
  obtain ⟨o, r1⟩ := o
  obtain ⟨o', s1⟩ := o'
  obtain ⟨h3, h4⟩ := h
  simp only at h3 h4
  subst h3
  cases o with
  | ok v => exact ⟨rfl, fun _ _ => h4 v rfl⟩
  | _ => exact ⟨rfl, fun _ h => by cases h⟩

theorem ite {p : Prop} [Decidable p] {a b : Dec R ε α} {a' b' : Dec S ε α} (ha : Twin a a')
    (hb : Twin b b') : Twin (if p then a else b) (if p then a' else b') := by
  split <;> assumption

end Twin

variable {x : Nat → Dec R IoError (List UInt8)} {y : Nat → Dec S IoError (List UInt8)}

theorem Fills.twin (hx : Fills x) (hy : Fills y) {n : Nat} (hn : 0 < n) : Twin (x n) (y n) := by
  intro r s h1 h2
  by_cases hl : (avail r).length < n
  · obtain ⟨r', e1⟩ := hx.err hl
    obtain ⟨s', e2⟩ := hy.err (r := s) (by rw [← h1]; exact hl)
    rw [e1, e2, h2]
    exact ⟨rfl, fun _ h => by cases h⟩
  · obtain ⟨r', e1, a1, f1⟩ := hx.ok (r := r) (bs := (avail r).take n) (rest := (avail r).drop n) hn
      (List.take_append_drop n _).symm (by rw [List.length_take]; omega)
    obtain ⟨s', e2, a2, f2⟩ := hy.ok (r := s) (bs := (avail r).take n) (rest := (avail r).drop n) hn
      (by rw [← h1]; exact (List.take_append_drop n _).symm) (by rw [List.length_take]; omega)
    rw [e1, e2]
    exact ⟨rfl, fun _ _ => ⟨by rw [a1, a2], by rw [f1, f2, h2]⟩⟩

theorem default_fills : Fills (R := R) readExact where
  ok := by
    intro n r bs rest _ ha hl
    subst hl
    obtain ⟨r', h, a⟩ := readExact_ok ha
    refine ⟨r', h, ?_, adv_fin a⟩
    rw [adv_avail a] at ha
    exact List.append_cancel_left ha
  err := fun h => readExact_err h

section
variable (hx : Fills x) (hy : Fills y)
include hx hy

theorem byte_twin : Twin (readByteBy x) (readByteBy y) :=
  Twin.bind (hx.twin hy (by omega)) fun _ => by split <;> first | exact Twin.pure | exact Twin.panic

theorem u32Loop_twin : ∀ rem i res sh, Twin (decodeU32LoopBy x rem i res sh) (decodeU32LoopBy y rem i res sh)
  | 0, _, _, _ => Twin.err
  | rem + 1, i, res, sh => by
    refine Twin.bind (Twin.mapErr (byte_twin hx hy)) fun _ => Twin.ite Twin.panic (Twin.ite (Twin.ite Twin.err Twin.pure)
      (Twin.ite Twin.panic (u32Loop_twin rem _ _ _)))

/-- The reader's position matters only if there is a section. -/
theorem header_twin {r : R} {s : S} (h1 : avail r = avail s) (h2 : fin r = fin s) :
    (decodeSectionHeaderBy x r).1 = (decodeSectionHeaderBy y s).1 ∧
    ∀ h, (decodeSectionHeaderBy x r).1 = .ok (some h) →
      avail (decodeSectionHeaderBy x r).2 = avail (decodeSectionHeaderBy y s).2 ∧
      fin (decodeSectionHeaderBy x r).2 = fin (decodeSectionHeaderBy y s).2 := by
  have hr : ∀ id, Twin (sectionHeaderRestBy x id) (sectionHeaderRestBy y id) := by
    intro id
    unfold sectionHeaderRestBy
    split
    · exact Twin.err
    · exact Twin.bind (Twin.mapErr (u32Loop_twin hx hy _ _ _ _)) fun _ => Twin.pure
  have h := byte_twin hx hy r s h1 h2
  simp only [decodeSectionHeaderBy]
  generalize readByteBy x r = o at h
  generalize readByteBy y s = o' at h
  obtain ⟨o, r1⟩ := o
  obtain ⟨o', s1⟩ := o'
  obtain ⟨h3, h4⟩ := h
  simp only at h3 h4
  subst h3
  cases o with
  | ok v =>
    have := hr v r1 s1 (h4 v rfl).1 (h4 v rfl).2
    exact ⟨this.1, fun h => this.2 (some h)⟩
  | err e =>
    simp only
    by_cases he : e = .unexpectedEof
    · rw [if_pos he, if_pos he]
      exact ⟨rfl, fun _ h => by cases h⟩
    · rw [if_neg he, if_neg he]
      exact ⟨rfl, fun _ h => by cases h⟩
  | panic => exact ⟨rfl, fun _ h => by cases h⟩
  | fuel => exact ⟨rfl, fun _ h => by cases h⟩

omit hx hy in
theorem section_twin (h : SectionHeader) (st : LoopState) :
    Twin (decodeSection h st : Dec R _ _) (decodeSection h st : Dec S _ _) := by
  intro r s h1 h2
  have hm := section_m (R := R) (S := S) h st (r := r) (s := s) (by rw [h1]; exact List.prefix_refl _)
  generalize decodeSection h st r = o at hm
  cases hm with
  | ok e1 a1 a2 =>
    rw [e1]
    refine ⟨rfl, fun _ _ => ⟨?_, ?_⟩⟩
    · rw [adv_avail a1, adv_avail a2] at h1
      exact List.append_cancel_left h1
    · rw [adv_fin a1, adv_fin a2, h2]
  | err he =>
    rcases he with ⟨s', he⟩ | ⟨_, he⟩
    · rw [he]
      exact ⟨rfl, fun _ h => by cases h⟩
    · obtain ⟨s', he⟩ := he h1.symm h2.symm
      rw [he]
      exact ⟨rfl, fun _ h => by cases h⟩

theorem loop_twin : ∀ n st (r : R) (s : S), avail r = avail s → fin r = fin s →
    (sectionLoopBy x n st r).1 = (sectionLoopBy y n st s).1
  | 0, _, _, _, _, _ => rfl
  | n + 1, st, r, s, h1, h2 => by
    have h := header_twin hx hy h1 h2
    simp only [sectionLoopBy, Bind.bind, Dec.bind, Dec.mapErr]
    generalize decodeSectionHeaderBy x r = o at h
    generalize decodeSectionHeaderBy y s = o' at h
    obtain ⟨o, r1⟩ := o
    obtain ⟨o', s1⟩ := o'
    obtain ⟨h3, h4⟩ := h
    simp only at h3 h4
    subst h3
    match o, h4 with
    | .ok none, _ => rfl
    | .ok (some hd), h4 =>
      have h5 := section_twin (R := R) (S := S) hd st r1 s1 (h4 hd rfl).1 (h4 hd rfl).2
      simp only [Dec.bind]
      generalize decodeSection hd st r1 = o at h5
      generalize decodeSection hd st s1 = o' at h5
      obtain ⟨o, r2⟩ := o
      obtain ⟨o', s2⟩ := o'
      obtain ⟨h6, h7⟩ := h5
      simp only at h6 h7
      subst h6
      cases o with
      | ok v => exact loop_twin n v r2 s2 (h7 v rfl).1 (h7 v rfl).2
      | _ => rfl
    | .err e, _ => rfl
    | .panic, _ => rfl
    | .fuel, _ => rfl

/-- On the same reader. -/
theorem module_twin {r : R} {s : S} (h1 : avail r = avail s) (h2 : fin r = fin s)
    (hw : Read.weight r = Read.weight s) : (decodeModuleBy x r).1 = (decodeModuleBy y s).1 := by
  have hp : Twin (parsePreambleBy x) (parsePreambleBy y) :=
    Twin.bind (Twin.mapErr (hx.twin hy (by omega))) fun _ => Twin.ite Twin.err Twin.pure
  have h := hp r s h1 h2
  simp only [decodeModuleBy, Bind.bind, Dec.bind, Dec.mapErr, hw]
  generalize parsePreambleBy x r = o at h
  generalize parsePreambleBy y s = o' at h
  obtain ⟨o, r1⟩ := o
  obtain ⟨o', s1⟩ := o'
  obtain ⟨h3, h4⟩ := h
  simp only at h3 h4
  subst h3
  cases o with
  | ok v =>
    have h5 := loop_twin hx hy (Read.weight s + 1) ⟨Module.default, false, false⟩ r1 s1 (h4 v rfl).1 (h4 v rfl).2
    simp only
    generalize sectionLoopBy x (Read.weight s + 1) ⟨Module.default, false, false⟩ r1 = o at h5
    generalize sectionLoopBy y (Read.weight s + 1) ⟨Module.default, false, false⟩ s1 = o' at h5
    obtain ⟨o, r2⟩ := o
    obtain ⟨o', s2⟩ := o'
    simp only at h5
    subst h5
    cases o with
    | ok st =>
      simp only [finalChecks]
      split
      · rfl
      · split
        · rfl
        · split <;> rfl
    | _ => rfl
  | _ => rfl

end

end Wadec
