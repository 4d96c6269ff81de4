import Verif.Props.Sections
import Verif.Props.Values
import Verif.Props.Types
import Verif.Proof.Module
import Verif.Spec.Unambiguous

/-! C35: the binary format is unambiguous. -/

namespace Wadec

open LawfulRead Spec

/-- What can be decoded exactly is unambiguous. -/
theorem Decodes.unambiguous {ε α : Type} {d : Dec Src ε α} {B : Bytes → α → Prop}
    (h : Decodes d B) : Unambiguous B := by
  intro b1 b2 t1 t2 v1 v2 h1 h2 he
  obtain ⟨r1, e1, a1, _⟩ := h.2 (Src.ofBytes (b1 ++ t1)) b1 t1 v1 h1 (avail_ofBytes _)
  obtain ⟨r2, e2, a2, _⟩ := h.2 (Src.ofBytes (b1 ++ t1)) b2 t2 v2 h2 (by rw [avail_ofBytes, he])
  rw [e1] at e2
  simp only [Prod.mk.injEq, Res.ok.injEq] at e2
  obtain ⟨rfl, rfl⟩ := e2
  rw [a1] at a2
  subst a2
  exact ⟨List.append_cancel_right he, rfl⟩

theorem BSeq.unique {α : Type} {B : Bytes → α → Prop} (hB : Unambiguous B) :
    ∀ {xs ys : List α} {b1 b2 t1 t2 : Bytes}, BSeq B b1 xs → BSeq B b2 ys → xs.length = ys.length →
    b1 ++ t1 = b2 ++ t2 → b1 = b2 ∧ xs = ys := by
  intro xs
  induction xs with
  | nil =>
    intro ys b1 b2 t1 t2 h1 h2 hl he
    cases ys with
    | nil => cases h1; cases h2; exact ⟨rfl, rfl⟩
    | cons y ys => simp at hl
  | cons x xs ih =>
    intro ys b1 b2 t1 t2 h1 h2 hl he
    cases ys with
    | nil => simp at hl
    | cons y ys =>
      cases h1 with
      | @cons c1 d1 _ _ hx h1 =>
        cases h2 with
        | @cons c2 d2 _ _ hy h2 =>
          rw [List.append_assoc, List.append_assoc] at he
          obtain ⟨rfl, rfl⟩ := hB hx hy he
          obtain ⟨rfl, rfl⟩ := ih h1 h2 (by simpa using hl) (List.append_cancel_left he)
          exact ⟨rfl, rfl⟩

/-- C35: lists of an unambiguous grammar. -/
theorem c35_list {α : Type} {B : Bytes → α → Prop} (hB : Unambiguous B) : Unambiguous (BList B) := by
  intro b1 b2 t1 t2 v1 v2 h1 h2 he
  cases h1 with
  | @mk c1 d1 _ n1 s1 =>
    cases h2 with
    | @mk c2 d2 _ n2 s2 =>
      have l1 := Wadec.BU.lt n1
      have l2 := Wadec.BU.lt n2
      rw [List.append_assoc, List.append_assoc] at he
      have e1 : (UInt32.ofNat v1.length).toNat = v1.length := by
        rw [UInt32.toNat_ofNat', Nat.mod_eq_of_lt l1]
      have e2 : (UInt32.ofNat v2.length).toNat = v2.length := by
        rw [UInt32.toNat_ofNat', Nat.mod_eq_of_lt l2]
      obtain ⟨rfl, hv⟩ := (c01_u32 (R := Src)).unambiguous (v1 := UInt32.ofNat v1.length)
        (v2 := UInt32.ofNat v2.length) (show BU 32 _ _ by rw [e1]; exact n1)
        (show BU 32 _ _ by rw [e2]; exact n2) he
      have hl : v1.length = v2.length := by
        have := congrArg UInt32.toNat hv
        rwa [e1, e2] at this
      obtain ⟨rfl, rfl⟩ := BSeq.unique hB s1 s2 hl (List.append_cancel_left he)
      exact ⟨rfl, rfl⟩

/-- C35: integers, floating-point numbers, names and byte vectors. -/
theorem c35_values : Unambiguous BU32 ∧ Unambiguous BU64 ∧ Unambiguous BI32 ∧ Unambiguous BI64 ∧
    Unambiguous BS33 ∧ Unambiguous BF32 ∧ Unambiguous BF64 ∧ Unambiguous BName ∧
    Unambiguous BByteVec :=
  ⟨(c01_u32 (R := Src)).unambiguous, (c02_u64 (R := Src)).unambiguous,
    (c03_i32 (R := Src)).unambiguous, (c04_i64 (R := Src)).unambiguous,
    (c05_s33 (R := Src)).unambiguous, (c08_f32 (R := Src)).unambiguous,
    (c08_f64 (R := Src)).unambiguous, (c09_name (R := Src)).unambiguous,
    (c10_byteVec (R := Src)).unambiguous⟩

/-- C35: types. -/
theorem c35_types : Unambiguous BValType ∧ Unambiguous BRefType ∧ Unambiguous BHeapType ∧
    Unambiguous BRecType ∧ Unambiguous BSubType ∧ Unambiguous BCompType ∧ Unambiguous BFieldType ∧
    Unambiguous BResultType ∧ Unambiguous BLimits ∧ Unambiguous BTableType ∧ Unambiguous BMemType ∧
    Unambiguous BGlobalType ∧ Unambiguous BTagType ∧ Unambiguous BExternType ∧
    Unambiguous BBlockType :=
  ⟨(c11_valtype (R := Src)).unambiguous, (c11_reftype (R := Src)).unambiguous,
    (c11_heaptype (R := Src)).unambiguous, (c12_rectype (R := Src)).unambiguous,
    (c12_subtype (R := Src)).unambiguous, (c12_comptype (R := Src)).unambiguous,
    (c12_fieldtype (R := Src)).unambiguous, (c12_resulttype (R := Src)).unambiguous,
    (c13_limits (R := Src)).unambiguous, (c13_tabletype (R := Src)).unambiguous,
    (c13_memtype (R := Src)).unambiguous, (c13_globaltype (R := Src)).unambiguous,
    (c13_tagtype (R := Src)).unambiguous, (c13_externtype (R := Src)).unambiguous,
    (c14_blocktype (R := Src)).unambiguous⟩

/-- C35: instructions. -/
theorem c35_instr : Unambiguous BInstr := by
  intro b1 b2 t1 t2 v1 v2 h1 h2 he
  have g1 := parse_runs (R := Src) (b1.length + b2.length) b1 v1 h1 (by omega)
  have g2 := parse_runs (R := Src) (b1.length + b2.length) b2 v2 h2 (by omega)
  obtain ⟨e1, e2⟩ := Runs.unique g1 g2 he
  cases e2
  exact ⟨e1, rfl⟩

/-- C35: expressions. -/
theorem c35_expr : Unambiguous BExpr := by
  intro b1 b2 t1 t2 v1 v2 h1 h2 he
  exact Runs.unique (expr'_runs h1) (expr'_runs h2) he

/-- C35: entries of sections. -/
theorem c35_entries : Unambiguous BImport ∧ Unambiguous BTable ∧ Unambiguous BGlobal ∧
    Unambiguous BExport ∧ Unambiguous BElem ∧ Unambiguous BCode ∧ Unambiguous BData :=
  ⟨(c38_import (R := Src)).unambiguous, (c38_table (R := Src)).unambiguous,
    (c38_global (R := Src)).unambiguous, (c38_export (R := Src)).unambiguous,
    (c37_elem (R := Src)).unambiguous, (c25_code (R := Src)).unambiguous,
    (c38_data (R := Src)).unambiguous⟩

theorem whole {α : Type} {B : Bytes → α → Prop} (h : Unambiguous B) {bs : Bytes} {v1 v2 : α}
    (h1 : B bs v1) (h2 : B bs v2) : v1 = v2 := (h h1 h2 (t1 := []) (t2 := []) rfl).2

theorem wholeList {α : Type} {B : Bytes → α → Prop} (h : Unambiguous B) {bs : Bytes} {v1 v2 : List α}
    (h1 : BList B bs v1) (h2 : BList B bs v2) : v1 = v2 := whole (c35_list h) h1 h2

theorem unambiguous_typeIdx : Unambiguous BTypeIdx := by
  intro b1 b2 t1 t2 v1 v2 h1 h2 he
  obtain ⟨e, h⟩ := c35_values.1 h1 h2 he
  exact ⟨e, by cases v1; cases v2; exact congrArg _ h⟩

theorem unambiguous_funcIdx : Unambiguous BFuncIdx := by
  intro b1 b2 t1 t2 v1 v2 h1 h2 he
  obtain ⟨e, h⟩ := c35_values.1 h1 h2 he
  exact ⟨e, by cases v1; cases v2; exact congrArg _ h⟩

/-- C35: the contents of a section, of known kind and extent, denote one value. -/
theorem c35_contents {bs : Bytes} {s1 s2 : Section} (h1 : BContents bs s1) (h2 : BContents bs s2)
    (hk : s1.kind = s2.kind) : s1 = s2 := by
  cases h1 <;> cases h2 <;> simp only [Section.kind, reduceCtorEq] at hk
  case custom c1 h1 c2 h2 =>
    cases h1 with
    | @mk a1 n1 d1 h1 =>
      generalize hb : a1 ++ d1 = bs at h2
      cases h2 with
      | @mk a2 n2 d2 h2 =>
        obtain ⟨rfl, rfl⟩ := c35_values.2.2.2.2.2.2.2.1 h1 h2 hb
        rw [List.append_cancel_left hb]
  case type h1 _ h2 => exact congrArg _ (wholeList c35_types.2.2.2.1 h1 h2)
  case «import» h1 _ h2 => exact congrArg _ (wholeList c35_entries.1 h1 h2)
  case function h1 _ h2 => exact congrArg _ (wholeList unambiguous_typeIdx h1 h2)
  case table h1 _ h2 => exact congrArg _ (wholeList c35_entries.2.1 h1 h2)
  case memory h1 _ h2 => exact congrArg _ (wholeList (c13_memtype (R := Src)).unambiguous h1 h2)
  case tag h1 _ h2 => exact congrArg _ (wholeList (c13_tagtype (R := Src)).unambiguous h1 h2)
  case global h1 _ h2 => exact congrArg _ (wholeList c35_entries.2.2.1 h1 h2)
  case «export» h1 _ h2 => exact congrArg _ (wholeList c35_entries.2.2.2.1 h1 h2)
  case start h1 _ h2 => exact congrArg _ (whole unambiguous_funcIdx h1 h2)
  case element h1 _ h2 => exact congrArg _ (wholeList c35_entries.2.2.2.2.1 h1 h2)
  case dataCount h1 _ h2 => exact congrArg _ (whole c35_values.1 h1 h2)
  case code h1 _ h2 => exact congrArg _ (wholeList c35_entries.2.2.2.2.2.1 h1 h2)
  case data h1 _ h2 => exact congrArg _ (wholeList c35_entries.2.2.2.2.2.2 h1 h2)

theorem sectionId_inj {k1 k2 : SectionKind} (h : sectionId k1 = sectionId k2) : k1 = k2 := by
  have h1 := (markers_iff (k := k1)).2 rfl
  rw [h, (markers_iff (k := k2)).2 rfl] at h1
  exact (Option.some.inj h1).symm

/-- C35: sections. -/
theorem c35_section : Unambiguous BSection := by
  intro b1 b2 t1 t2 v1 v2 h1 h2 he
  cases h1 with
  | @mk n1 c1 z1 s1 u1 l1 k1 =>
    cases h2 with
    | @mk n2 c2 z2 s2 u2 l2 k2 =>
      simp only [List.cons_append, List.cons.injEq, List.append_assoc] at he
      obtain ⟨hi, he⟩ := he
      obtain ⟨rfl, rfl⟩ := c35_values.1 u1 u2 he
      have he := List.append_cancel_left he
      obtain ⟨rfl, _⟩ := List.append_inj he (by rw [l1, l2])
      have hk := sectionId_inj hi
      have := c35_contents k1 k2 hk
      subst this
      exact ⟨rfl, rfl⟩

theorem BSection.ne_nil {bs : Bytes} {s : UInt32 × Section} (h : BSection bs s) : bs ≠ [] := by
  cases h; simp

/-- Sections that are a prefix of other sections. -/
theorem sections_prefix : ∀ {ss ss' : List (UInt32 × Section)} {b t : Bytes}, BSeq BSection b ss →
    BSeq BSection (b ++ t) ss' → ∃ rest, ss' = ss ++ rest ∧ BSeq BSection t rest := by
  intro ss
  induction ss with
  | nil =>
    intro ss' b t h1 h2
    cases h1
    exact ⟨ss', rfl, h2⟩
  | cons x ss ih =>
    intro ss' b t h1 h2
    cases h1 with
    | @cons c1 d1 _ _ hx h1 =>
      generalize hb : c1 ++ d1 ++ t = bs at h2
      cases h2 with
      | nil =>
        have : c1 = [] := by
          simp only [List.append_eq_nil_iff] at hb
          exact hb.1.1
        exact absurd this (BSection.ne_nil hx)
      | @cons c2 d2 y ys hy h2 =>
        rw [List.append_assoc] at hb
        obtain ⟨rfl, rfl⟩ := c35_section hx hy hb
        have hb := List.append_cancel_left hb
        subst hb
        obtain ⟨rest, rfl, hr⟩ := ih h1 h2
        exact ⟨rest, rfl, hr⟩

theorem sections_unique {ss ss' : List (UInt32 × Section)} {b : Bytes} (h1 : BSeq BSection b ss)
    (h2 : BSeq BSection b ss') : ss = ss' := by
  obtain ⟨rest, rfl, hr⟩ := sections_prefix (t := []) h1 (by simpa using h2)
  cases rest with
  | nil => simp
  | cons x xs =>
    generalize hb : ([] : Bytes) = b at hr
    cases hr with
    | cons hx _ =>
      exact absurd (List.append_eq_nil_iff.1 hb.symm).1 (BSection.ne_nil hx)

/-- C35: bytes denote at most one module. -/
theorem c35_module {bs : Bytes} {m1 m2 : Module} (h1 : BModule bs m1) (h2 : BModule bs m2) :
    m1 = m2 := by
  cases h1 with
  | @mk b1 s1 h1 w1 =>
    generalize hb : preamble ++ b1 = bs at h2
    cases h2 with
    | @mk b2 s2 h2 w2 =>
      have := List.append_cancel_left hb
      subst this
      rw [sections_unique h1 h2]

/-! ### Instances -/

/-- `5` as a `u32` in one and in three bytes: neither is a prefix of the other -/
example : BU32 [0x05] 5 ∧ BU32 [0x85, 0x80, 0x00] 5 :=
  ⟨(c07_u32 5 _).2 ⟨1, by decide⟩, (c07_u32 5 _).2 ⟨3, by decide⟩⟩
/-- a section: three bytes of header and contents, followed by anything -/
example : BSection [0x01, 0x01, 0x00] (1, .type []) :=
  .mk (b1 := [0x01]) (b2 := [0x00]) (s := .type []) ((c07_u32 1 _).2 ⟨1, by decide⟩) rfl
    (.type (.mk (b := [0x00]) (bs := []) (xs := []) u0 .nil))

end Wadec
