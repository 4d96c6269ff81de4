import Verif.Proof.Shortest
import Verif.Props.RoundTrip

/-! The shortest encoding of code entries, sections and modules (C73). -/

namespace Wadec

open Spec

/-! ### Locals -/

theorem encU_le_iff (n : Nat) : ∀ k, (encU n).length ≤ k + 1 ↔ n < 128 ^ (k + 1) := by
  induction n using Nat.strongRecOn with
  | ind n ih =>
    intro k
    rw [encU]
    by_cases h : n < 128
    · rw [if_pos h]
      have : 128 ≤ 128 ^ (k + 1) := by
        have := Nat.pow_le_pow_right (n := 128) (by omega) (show 1 ≤ k + 1 by omega)
        simpa using this
      simp only [List.length_cons, List.length_nil]
      constructor <;> intro _ <;> omega
    · rw [if_neg h]
      simp only [List.length_cons]
      cases k with
      | zero =>
        have := encU_pos (n / 128)
        constructor
        · intro _; omega
        · intro hk; simp at hk; omega
      | succ k =>
        have := ih (n / 128) (by omega) k
        rw [show 128 ^ (k + 1 + 1) = 128 ^ (k + 1) * 128 from Nat.pow_succ ..]
        constructor
        · intro hk
          have := this.1 (by omega)
          omega
        · intro hk
          have := this.2 (by omega)
          omega

theorem encU_add (a b : Nat) : (encU (a + b)).length ≤ (encU a).length + (encU b).length := by
  have pa := encU_pos a; have pb := encU_pos b
  obtain ⟨i, hi⟩ : ∃ i, (encU a).length = i + 1 := ⟨_, (Nat.succ_pred_eq_of_pos pa).symm⟩
  obtain ⟨j, hj⟩ : ∃ j, (encU b).length = j + 1 := ⟨_, (Nat.succ_pred_eq_of_pos pb).symm⟩
  have ha := (encU_le_iff a i).1 (by omega)
  have hb := (encU_le_iff b j).1 (by omega)
  rw [hi, hj, show i + 1 + (j + 1) = (i + 1 + j) + 1 by omega]
  refine (encU_le_iff _ _).2 ?_
  rw [show i + 1 + j + 1 = (i + 1) + (j + 1) by omega, Nat.pow_add]
  have hx : 2 ≤ 128 ^ (i + 1) := by
    have := Nat.pow_le_pow_right (n := 128) (by omega) (show 1 ≤ i + 1 by omega); omega
  have hy : 2 ≤ 128 ^ (j + 1) := by
    have := Nat.pow_le_pow_right (n := 128) (by omega) (show 1 ≤ j + 1 by omega); omega
  generalize 128 ^ (i + 1) = x at *
  generalize 128 ^ (j + 1) = y at *
  obtain ⟨x, rfl⟩ : ∃ z, x = z + 2 := ⟨x - 2, by omega⟩
  obtain ⟨y, rfl⟩ : ∃ z, y = z + 2 := ⟨y - 2, by omega⟩
  have : (x + 2) * (y + 2) = x * y + 2 * x + 2 * y + 4 := by
    rw [Nat.add_mul, Nat.mul_add, Nat.mul_add]; omega
  omega

/-- `n + 1` locals of type `t` before runs. -/
def pushRun (n : Nat) (t : ValType) : List (UInt32 × ValType) → List (UInt32 × ValType)
  | [] => [(UInt32.ofNat (n + 1), t)]
  | (k, t') :: rs => if t = t' then (k + UInt32.ofNat (n + 1), t') :: rs else (UInt32.ofNat (n + 1), t) :: (k, t') :: rs

theorem ofNat_succ (n : Nat) : UInt32.ofNat (n + 1) + 1 = UInt32.ofNat (n + 1 + 1) := by
  rw [UInt32.ofNat_add (n + 1) 1]; rfl

theorem runsOf_push (t : ValType) (ls : List ValType) : ∀ n,
    runsOf (List.replicate (n + 1) t ++ ls) = pushRun n t (runsOf ls)
  | 0 => by
    show runsOf (t :: ls) = _
    rw [runsOf]
    cases runsOf ls with
    | nil => rfl
    | cons p rs => obtain ⟨k, t'⟩ := p; rfl
  | n + 1 => by
    have ih := runsOf_push t ls n
    rw [show List.replicate (n + 1 + 1) t ++ ls = t :: (List.replicate (n + 1) t ++ ls) from rfl, runsOf, ih]
    cases runsOf ls with
    | nil =>
      simp only [pushRun, if_true, ofNat_succ]
    | cons p rs =>
      obtain ⟨k, t'⟩ := p
      simp only [pushRun]
      by_cases h : t = t'
      · subst h
        simp only [if_true, UInt32.add_assoc, ofNat_succ]
      · simp only [if_neg h, if_true, ofNat_succ]

theorem toNat_ofNat {n : Nat} (h : n < 2 ^ 32) : (UInt32.ofNat n).toNat = n := by
  rw [UInt32.toNat_ofNat', Nat.mod_eq_of_lt h]

/-- Joining runs does not make them longer. -/
theorem runs_le : ∀ {rs : List (UInt32 × ValType)}, (localsOf rs).length < 2 ^ 32 →
    (runsOf (localsOf rs)).length ≤ rs.length ∧
    ((runsOf (localsOf rs)).flatMap shRun).length ≤ (rs.flatMap shRun).length := by
  intro rs
  induction rs with
  | nil => intro _; exact ⟨Nat.le_refl _, Nat.le_refl _⟩
  | cons r rs ih =>
    obtain ⟨n, t⟩ := r
    intro hl
    have e : localsOf ((n, t) :: rs) = List.replicate n.toNat t ++ localsOf rs := by
      simp [localsOf]
    rw [e] at hl ⊢
    rw [List.length_append, List.length_replicate] at hl
    obtain ⟨i1, i2⟩ := ih (by omega)
    cases hn : n.toNat with
    | zero =>
      simp only [List.replicate_zero, List.nil_append, List.flatMap_cons, List.length_cons, List.length_append]
      omega
    | succ k =>
      rw [hn] at hl
      rw [runsOf_push]
      have hk : UInt32.ofNat (k + 1) = n := by rw [← hn]; exact UInt32.ofNat_toNat
      have hr := localsOf_runsOf (l := localsOf rs) (by omega)
      cases h : runsOf (localsOf rs) with
      | nil =>
        rw [h] at i1 i2
        simp only [pushRun, hk, List.flatMap_cons, List.flatMap_nil, List.length_cons, List.length_append,
          List.length_nil] at *
        omega
      | cons p qs =>
        obtain ⟨m, t'⟩ := p
        have hm := runsOf_head hr h
        rw [h] at i1 i2
        simp only [pushRun, hk]
        split
        · rename_i ht
          subst ht
          have ha : (m + n).toNat = m.toNat + n.toNat := by
            rw [UInt32.toNat_add]
            exact Nat.mod_eq_of_lt (by omega)
          have := encU_add m.toNat n.toNat
          simp only [shRun, ha, List.flatMap_cons, List.length_cons, List.length_append] at *
          omega
        · simp only [List.flatMap_cons, List.length_cons, List.length_append] at *
          omega

theorem shrinks_run : Shrinks BLocals shRun := by
  intro bs v h
  cases h with
  | mk h1 h2 =>
    have g := shrinks_val h2
    have l1 := encU_min h1; have l2 := g.2
    exact ⟨.mk (encU32 _) g.1, by simp only [shRun]; shlen⟩

theorem shValType_ok (t : ValType) : BValType (shValType t) t := (shrinks_val (encValType_ok t)).1

theorem encU_mono {a b : Nat} (h : a ≤ b) : (encU a).length ≤ (encU b).length := by
  have pb := encU_pos b
  obtain ⟨j, hj⟩ : ∃ j, (encU b).length = j + 1 := ⟨_, (Nat.succ_pred_eq_of_pos pb).symm⟩
  have hb := (encU_le_iff b j).1 (by omega)
  rw [hj]
  exact (encU_le_iff a j).2 (by omega)

theorem shrinks_func : Shrinks BFunc shFuncBody := by
  intro bs v h
  cases h with
  | @mk b1 b2 runs e h1 h2 hn =>
    have g1 := shrinks_run.list h1; have g2 := shrinks_expr h2
    have l1 := g1.2; have l2 := g2.2
    obtain ⟨r1, r2⟩ := runs_le hn
    have hr := localsOf_runsOf hn
    have hc := list_count h1
    have hb : BList BLocals (encList shRun (runsOf (localsOf runs))) (runsOf (localsOf runs)) :=
      .mk (encU_ok _ _ (by omega) (by omega)) (encSeq_ok fun r _ => .mk (encU32 _) (shValType_ok _))
    have := BFunc.mk hb g2.1 (by rw [hr]; exact hn)
    rw [hr] at this
    refine ⟨this, ?_⟩
    have := encU_mono r1
    simp only [shFuncBody, encList, List.length_append] at *
    omega

theorem shrinks_code : Shrinks BCode shCode := by
  intro bs v h
  cases h with
  | mk h1 h2 =>
    have g := shrinks_func h2
    have l := g.2
    have l1 := encU_min h1
    have hn := BU.lt h1
    have := encU_mono l
    exact ⟨.mk (encU_ok _ _ (by omega) (by omega)) g.1, by simp only [shCode]; shlen⟩

/-! ### Sections -/

theorem shrinks_contents : Shrinks BContents shContents := by
  intro bs v h
  cases h with
  | custom h =>
    cases h with
    | mk h =>
      have g := shrinks_name h; have l := g.2
      exact ⟨.custom (.mk g.1), by simp only [shContents, encCustom]; shlen⟩
  | type h => exact ⟨.type (shrinks_rec.list h).1, (shrinks_rec.list h).2⟩
  | «import» h => exact ⟨.import (shrinks_import.list h).1, (shrinks_import.list h).2⟩
  | function h => exact ⟨.function (shrinks_idx.list h).1, (shrinks_idx.list h).2⟩
  | table h => exact ⟨.table (shrinks_table.list h).1, (shrinks_table.list h).2⟩
  | memory h => exact ⟨.memory (shrinks_mem.list h).1, (shrinks_mem.list h).2⟩
  | tag h => exact ⟨.tag (shrinks_tag.list h).1, (shrinks_tag.list h).2⟩
  | global h => exact ⟨.global (shrinks_global.list h).1, (shrinks_global.list h).2⟩
  | «export» h => exact ⟨.export (shrinks_export.list h).1, (shrinks_export.list h).2⟩
  | start h => exact ⟨.start (encU32 _), encU_min h⟩
  | element h => exact ⟨.element (shrinks_elem.list h).1, (shrinks_elem.list h).2⟩
  | dataCount h => exact ⟨.dataCount (encU32 _), encU_min h⟩
  | code h => exact ⟨.code (shrinks_code.list h).1, (shrinks_code.list h).2⟩
  | data h => exact ⟨.data (shrinks_data.list h).1, (shrinks_data.list h).2⟩

/-! ### The sections of a module are among those it was read from -/

theorem flatMap_kind {α : Type} {g : Section → List α} {k : SectionKind} (hg : ∀ s, s.kind ≠ k → g s = []) :
    ∀ ss : List Section, ss.flatMap g = (ss.filter fun s => decide (s.kind = k)).flatMap g
  | [] => rfl
  | s :: ss => by
    have ih := flatMap_kind hg ss
    by_cases h : s.kind = k
    · simp only [List.flatMap_cons, List.filter_cons, h, decide_true, if_true]
      rw [← ih]
    · simp only [List.flatMap_cons, List.filter_cons, h, decide_false, hg s h, List.nil_append]
      simpa using ih

theorem filterMap_kind {α : Type} {g : Section → Option α} {k : SectionKind} (hg : ∀ s, s.kind ≠ k → g s = none) :
    ∀ ss : List Section, ss.filterMap g = (ss.filter fun s => decide (s.kind = k)).filterMap g
  | [] => rfl
  | s :: ss => by
    have ih := filterMap_kind hg ss
    by_cases h : s.kind = k
    · simp only [List.filterMap_cons, List.filter_cons, h, decide_true, if_true]
      rw [← ih]
    · simp only [List.filterMap_cons, List.filter_cons, h, decide_false, hg s h]
      simpa using ih

/-- The sections of kind `k`. -/
def ofKind (k : SectionKind) (ss : List Section) : List Section := ss.filter fun s => decide (s.kind = k)

theorem ofKind_one {ss : List Section} (h : List.Sublist (nonCustom ss) sectionOrder) {k : SectionKind} (hk : k ≠ .Custom) :
    (ofKind k ss).length ≤ 1 := by
  have h1 := h.count_le k
  have h2 : sectionOrder.count k ≤ 1 := by cases k <;> decide
  have h3 : ∀ ss : List Section, (ofKind k ss).length = (nonCustom ss).count k := by
    intro ss
    induction ss with
    | nil => rfl
    | cons s ss ih =>
      unfold ofKind nonCustom at *
      by_cases he : s.kind = k
      · have hc : s.kind ≠ .Custom := by rw [he]; exact hk
        simp only [List.filter_cons, List.map_cons, he, decide_true, if_true, List.length_cons, ih]
        simp [hk]
      · simp only [List.filter_cons, List.map_cons, he, decide_false]
        by_cases hc : s.kind = .Custom
        · simpa [hc] using ih
        · simp only [ne_eq, hc, not_false_eq_true, decide_true, if_true, List.count_cons]
          simpa [he] using ih
  rw [h3]; omega

theorem piece_list {α : Type} {f : List α → Section} {g : Section → List α} {k : SectionKind}
    (hf : ∀ s, s.kind = k → s = f (g s)) (hg : ∀ s, s.kind ≠ k → g s = []) {ss : List Section}
    (h1 : (ofKind k ss).length ≤ 1) : List.Sublist (listSection f (ss.flatMap g)) (ofKind k ss) := by
  rw [flatMap_kind hg ss]
  have hk : ∀ s ∈ ofKind k ss, s.kind = k := fun s hs => by simpa using (List.mem_filter.1 hs).2
  change List.Sublist (listSection f ((ofKind k ss).flatMap g)) _
  generalize ofKind k ss = l at *
  match l, h1 with
  | [], _ => simp [listSection]
  | [s], _ =>
    have := hf s (hk s (by simp))
    unfold listSection
    split
    · simp
    · simp only [List.flatMap_cons, List.flatMap_nil, List.append_nil]
      rw [← this]; exact List.Sublist.refl _
  | _ :: _ :: _, h => simp only [List.length_cons] at h; omega

theorem piece_opt {α : Type} {f : α → Section} {g : Section → Option α} {k : SectionKind}
    (hf : ∀ s, s.kind = k → ∃ x, g s = some x ∧ s = f x) (hg : ∀ s, s.kind ≠ k → g s = none) {ss : List Section}
    (h1 : (ofKind k ss).length ≤ 1) : List.Sublist ((ss.filterMap g).head?.toList.map f) (ofKind k ss) := by
  rw [filterMap_kind hg ss]
  have hk : ∀ s ∈ ofKind k ss, s.kind = k := fun s hs => by simpa using (List.mem_filter.1 hs).2
  change List.Sublist (((ofKind k ss).filterMap g).head?.toList.map f) _
  generalize ofKind k ss = l at *
  match l, h1 with
  | [], _ => simp
  | [s], _ =>
    obtain ⟨x, h2, h3⟩ := hf s (hk s (by simp))
    simp only [List.filterMap_cons, h2, List.filterMap_nil, List.head?_cons, Option.toList_some, List.map_cons,
      List.map_nil, ← h3]
    exact List.Sublist.refl _
  | _ :: _ :: _, h => simp only [List.length_cons] at h; omega

theorem piece_customs : ∀ ss : List Section, (customsOf ss).map Section.custom = ofKind .Custom ss
  | [] => rfl
  | s :: ss => by
    have ih := piece_customs ss
    unfold customsOf ofKind at *
    cases s <;> simp [Section.kind, ih]

theorem zip_types : ∀ {as : List TypeIdx} {cs : List CodeEntry}, as.length = cs.length →
    (List.zipWith mkFunc as cs).map (fun f => f.type) = as
  | [], [], _ => rfl
  | a :: as, c :: cs, h => by
    have := zip_types (as := as) (cs := cs) (by simpa using h)
    simp only [List.zipWith_cons_cons, List.map_cons, this]; rfl

theorem zip_codes : ∀ {as : List TypeIdx} {cs : List CodeEntry}, as.length = cs.length →
    (List.zipWith mkFunc as cs).map (fun f => (⟨f.locals, f.body⟩ : CodeEntry)) = cs
  | [], [], _ => rfl
  | a :: as, c :: cs, h => by
    have := zip_codes (as := as) (cs := cs) (by simpa using h)
    simp only [List.zipWith_cons_cons, List.map_cons, this]; rfl

/-- A number for each section of `sectionsOf`, summed, against the same for the sections the module was read from. -/
def weigh (g : Section → Nat) (ss : List Section) : Nat := (ss.map g).sum

theorem weigh_append (g : Section → Nat) (a b : List Section) : weigh g (a ++ b) = weigh g a + weigh g b := by
  simp [weigh]

theorem weigh_sublist {g : Section → Nat} {a b : List Section} (h : List.Sublist a b) : weigh g a ≤ weigh g b := by
  induction h with
  | slnil => exact Nat.le_refl _
  | cons _ _ ih => simp only [weigh, List.map_cons, List.sum_cons] at *; omega
  | cons_cons _ _ ih => simp only [weigh, List.map_cons, List.sum_cons] at *; omega

theorem weigh_cons (g : Section → Nat) (k : SectionKind) (s : Section) (ss : List Section) :
    weigh g (ofKind k (s :: ss)) = (if s.kind = k then g s else 0) + weigh g (ofKind k ss) := by
  unfold ofKind
  by_cases h : s.kind = k <;> simp [List.filter_cons, h, weigh]

theorem weigh_list (g : Section → Nat) (s : Section) (ss : List Section) : ∀ ks : List SectionKind,
    (ks.map fun k => weigh g (ofKind k (s :: ss))).sum = g s * ks.count s.kind + (ks.map fun k => weigh g (ofKind k ss)).sum
  | [] => by simp
  | k :: ks => by
    have ih := weigh_list g s ss ks
    rw [List.map_cons, List.sum_cons, ih, weigh_cons, List.count_cons, List.map_cons, List.sum_cons]
    by_cases h : s.kind = k
    · subst h
      rw [if_pos rfl, if_pos (by simp), Nat.mul_add, Nat.mul_one]; omega
    · have h' : ¬ (k == s.kind) = true := by simp only [beq_iff_eq]; exact fun e => h e.symm
      rw [if_neg h, if_neg h', Nat.add_zero]; omega

theorem weigh_kinds (g : Section → Nat) (ss : List Section) :
    weigh g ss = ((SectionKind.Custom :: sectionOrder).map fun k => weigh g (ofKind k ss)).sum := by
  induction ss with
  | nil => rfl
  | cons s ss ih =>
    have hs : weigh g (s :: ss) = g s + weigh g ss := by simp [weigh]
    have hk : (SectionKind.Custom :: sectionOrder).count s.kind = 1 := by
      generalize s.kind = k
      cases k <;> rfl
    rw [hs, ih, weigh_list, hk, Nat.mul_one]

/-- The sections of an assembled module, kind by kind. -/
structure Pieces (m : Module) (ss : List Section) : Prop where
  types : List.Sublist (listSection .type m.types) (ofKind .Type ss)
  imports : List.Sublist (listSection .import m.imports) (ofKind .Import ss)
  functions : List.Sublist (listSection .function (m.funcs.map fun f => f.type)) (ofKind .Function ss)
  tables : List.Sublist (listSection .table m.tables) (ofKind .Table ss)
  mems : List.Sublist (listSection .memory m.mems) (ofKind .Memory ss)
  tags : List.Sublist (listSection .tag m.tags) (ofKind .Tag ss)
  globals : List.Sublist (listSection .global m.globals) (ofKind .Global ss)
  exports : List.Sublist (listSection .export m.exports) (ofKind .Export ss)
  start : List.Sublist (m.start.toList.map .start) (ofKind .Start ss)
  elems : List.Sublist (listSection .element m.elems) (ofKind .Element ss)
  dataCount : List.Sublist (m.data_count.toList.map .dataCount) (ofKind .DataCount ss)
  codes : List.Sublist (listSection .code (m.funcs.map fun f => ⟨f.locals, f.body⟩)) (ofKind .Code ss)
  datas : List.Sublist (listSection .data m.datas) (ofKind .Data ss)
  customs : m.custom_sections.map .custom = ofKind .Custom ss

theorem pieces {secs : List (UInt32 × Section)} (hw : WellFormed (secs.map Prod.snd)) :
    Pieces (assemble secs) (secs.map Prod.snd) := by
  have one := fun {k} (hk : k ≠ SectionKind.Custom) => ofKind_one hw.order hk
  constructor
  case functions =>
    show List.Sublist (listSection .function ((List.zipWith mkFunc _ _).map fun f => f.type)) _
    rw [zip_types hw.funcs]
    exact piece_list (by intro s h; cases s <;> first | rfl | cases h) (by intro s h; cases s <;> first | rfl | exact absurd rfl h)
      (one (by simp))
  case codes =>
    show List.Sublist (listSection .code ((List.zipWith mkFunc _ _).map fun f => ⟨f.locals, f.body⟩)) _
    rw [zip_codes hw.funcs]
    exact piece_list (by intro s h; cases s <;> first | rfl | cases h) (by intro s h; cases s <;> first | rfl | exact absurd rfl h)
      (one (by simp))
  case start =>
    exact piece_opt (by intro s h; cases s <;> first | exact ⟨_, rfl, rfl⟩ | cases h)
      (by intro s h; cases s <;> first | rfl | exact absurd rfl h) (one (by simp))
  case dataCount =>
    exact piece_opt (by intro s h; cases s <;> first | exact ⟨_, rfl, rfl⟩ | cases h)
      (by intro s h; cases s <;> first | rfl | exact absurd rfl h) (one (by simp))
  case customs => exact piece_customs _
  all_goals
    exact piece_list (by intro s h; cases s <;> first | rfl | cases h) (by intro s h; cases s <;> first | rfl | exact absurd rfl h)
      (one (by simp))

theorem pieces_weigh {m : Module} {ss : List Section} (h : Pieces m ss) (g : Section → Nat) :
    weigh g (sectionsOf m) ≤ weigh g ss := by
  rw [weigh_kinds g ss]
  unfold sectionsOf sectionOrder
  simp only [List.map_cons, List.map_nil, List.sum_cons, List.sum_nil]
  simp only [weigh_append]
  have h1 := weigh_sublist (g := g) h.types; have h2 := weigh_sublist (g := g) h.imports
  have h3 := weigh_sublist (g := g) h.functions; have h4 := weigh_sublist (g := g) h.tables
  have h5 := weigh_sublist (g := g) h.mems; have h6 := weigh_sublist (g := g) h.tags
  have h7 := weigh_sublist (g := g) h.globals; have h8 := weigh_sublist (g := g) h.exports
  have h9 := weigh_sublist (g := g) h.start; have h10 := weigh_sublist (g := g) h.elems
  have h11 := weigh_sublist (g := g) h.dataCount; have h12 := weigh_sublist (g := g) h.codes
  have h13 := weigh_sublist (g := g) h.datas
  rw [h.customs]
  omega

theorem pieces_mem {m : Module} {ss : List Section} (h : Pieces m ss) : ∀ s ∈ sectionsOf m, s ∈ ss := by
  intro s hs
  have hf : ∀ {k}, s ∈ ofKind k ss → s ∈ ss := fun hk => (List.mem_filter.1 hk).1
  unfold sectionsOf at hs
  simp only [List.mem_append, h.customs] at hs
  rcases hs with hs | hs | hs | hs | hs | hs | hs | hs | hs | hs | hs | hs | hs | hs
  · exact hf hs
  · exact hf (h.types.mem hs)
  · exact hf (h.imports.mem hs)
  · exact hf (h.functions.mem hs)
  · exact hf (h.tables.mem hs)
  · exact hf (h.mems.mem hs)
  · exact hf (h.tags.mem hs)
  · exact hf (h.globals.mem hs)
  · exact hf (h.exports.mem hs)
  · exact hf (h.start.mem hs)
  · exact hf (h.elems.mem hs)
  · exact hf (h.dataCount.mem hs)
  · exact hf (h.codes.mem hs)
  · exact hf (h.datas.mem hs)

/-! ### Modules -/

theorem seq_weigh {b : Bytes} {secs : List (UInt32 × Section)} (h : BSeq BSection b secs) :
    weigh (fun s => (shSection s).length) (secs.map Prod.snd) ≤ b.length ∧
    ∀ s ∈ secs.map Prod.snd, BContents (shContents s) s ∧ (shContents s).length < 2 ^ 32 := by
  induction h with
  | nil => exact ⟨Nat.le_refl _, by simp⟩
  | cons hx _ ih =>
    cases hx with
    | @mk b1 b2 size s h1 h2 h3 =>
      have g := shrinks_contents h3
      have l := g.2
      have hz := BU.lt h1
      have l1 := encU_min h1
      have l2 := encU_mono (a := (shContents s).length) (b := size.toNat) (by omega)
      constructor
      · have := ih.1
        simp only [weigh, List.map_cons, List.sum_cons, shSection, List.length_cons, List.length_append] at *
        omega
      · intro t ht
        rcases List.mem_cons.1 ht with ht | ht
        · rw [ht]; exact ⟨g.1, by show (shContents s).length < _; omega⟩
        · exact ih.2 t ht

/-- The size and the section, in the shortest encoding. -/
def shSized (s : Section) : UInt32 × Section := (UInt32.ofNat (shContents s).length, s)

theorem shSections_ok : ∀ {ss : List Section},
    (∀ s ∈ ss, BContents (shContents s) s ∧ (shContents s).length < 2 ^ 32) →
    BSeq BSection (ss.flatMap shSection) (ss.map shSized)
  | [], _ => .nil
  | s :: ss, h => by
    have h0 := h s (by simp)
    have hs := toNat_ofNat h0.2
    refine .cons (.mk ?_ hs.symm h0.1) (shSections_ok fun x hx => h x (by simp [hx]))
    show BU 32 _ _
    rw [hs]
    exact encU_ok _ _ (by omega) h0.2

theorem flatMap_weigh (ss : List Section) : (ss.flatMap shSection).length = weigh (fun s => (shSection s).length) ss := by
  induction ss with
  | nil => rfl
  | cons s ss ih => simp only [weigh, List.flatMap_cons, List.length_append, List.map_cons, List.sum_cons] at *; omega

theorem shSized_map (ss : List Section) : (ss.map shSized).map Prod.snd = ss := by
  rw [List.map_map]
  exact List.map_id' ss

theorem assemble_short {m : Module} (h : m.version = [0x01, 0x00, 0x00, 0x00]) :
    assemble ((sectionsOf m).map shSized) = { m with
      parsed_section_kinds := nonCustom (sectionsOf m), section_headers := shHeaders m } := by
  simp only [assemble]
  rw [shSized_map, types_sectionsOf, imports_sectionsOf, typeIdxs_sectionsOf, tables_sectionsOf,
    mems_sectionsOf, tags_sectionsOf, globals_sectionsOf, exports_sectionsOf, elems_sectionsOf,
    codes_sectionsOf, datas_sectionsOf, start_sectionsOf, dataCount_sectionsOf, customs_sectionsOf,
    ← h]
  have hf : List.zipWith mkFunc (m.funcs.map fun f => f.type)
      (m.funcs.map fun f => (⟨f.locals, f.body⟩ : CodeEntry)) = m.funcs := by
    generalize m.funcs = fs
    induction fs with
    | nil => rfl
    | cons f fs ih => simp only [List.map_cons, List.zipWith_cons_cons, ih]; rfl
  rw [hf]
  simp [shHeaders, shSized, Function.comp_def]

theorem wf_short {secs : List (UInt32 × Section)} (hw : WellFormed (secs.map Prod.snd)) :
    WellFormed (sectionsOf (assemble secs)) := by
  refine ⟨order_sectionsOf _, ?_, ?_, ?_⟩
  · rw [typeIdxs_sectionsOf, codes_sectionsOf]; simp
  · rw [dataCount_sectionsOf, datas_sectionsOf]; exact hw.dataCount
  · rw [dataCount_sectionsOf, codes_sectionsOf]
    show (∃ c ∈ (List.zipWith mkFunc _ _).map (fun f => (⟨f.locals, f.body⟩ : CodeEntry)), _) → _
    rw [zip_codes hw.funcs]
    exact hw.dataIdx

theorem module_short {bs : Bytes} {m : Module} (h : BModule bs m) :
    BModule (shModule m) { m with parsed_section_kinds := nonCustom (sectionsOf m), section_headers := shHeaders m } ∧
    (shModule m).length ≤ bs.length := by
  cases h with
  | @mk b secs hb hw =>
    have hp := pieces hw
    obtain ⟨h1, h2⟩ := seq_weigh hb
    constructor
    · rw [← assemble_short rfl]
      exact .mk (shSections_ok fun s hs => h2 s (pieces_mem hp s hs)) (by rw [shSized_map]; exact wf_short hw)
    · have := pieces_weigh hp (fun s => (shSection s).length)
      have e := flatMap_weigh (sectionsOf (assemble secs))
      simp only [shModule, List.length_append]
      omega

end Wadec
