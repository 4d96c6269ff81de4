import Verif.Model.Usage
import Verif.Proof.Nesting
import Verif.Spec.Size

/-! The derived impls need the call stack that decoding needed (C83). -/

namespace Wadec

open Spec

/-- Room for `d` calls is enough for a vector. -/
def Shallow (d : Nat) (is : List Instr) : Prop := depthInstrs is < d ∨ is = []

theorem shallow_cons {d : Nat} {i : Instr} {is : List Instr} (h : Shallow d (i :: is)) : depthInstr i < d ∧ Shallow d is := by
  have h : depthInstrs (i :: is) < d := h.resolve_right (by simp)
  simp only [depthInstrs] at h
  exact ⟨by omega, .inl (by omega)⟩

theorem shallow_down {d : Nat} {is : List Instr} (h : 1 + depthInstrs is < d + 1) : Shallow d is := .inl (by omega)

/-- the same for an optional vector -/
def ShallowOpt (d : Nat) : Option (List Instr) → Prop
  | none => True
  | some is => Shallow d is

mutual
theorem drop_within : ∀ (d : Nat) (i : Instr), depthInstr i < d → dropWithin d i = some ()
  | 0, i, h => absurd h (Nat.not_lt_zero _)
  | d + 1, i, h => by
    cases i with
    | Block bt body =>
      simp only [depthInstr] at h
      simp only [dropWithin]
      rw [dropVec_within d body (shallow_down h)]
      try rfl
    | Loop bt body =>
      simp only [depthInstr] at h
      simp only [dropWithin]
      rw [dropVec_within d body (shallow_down h)]
      try rfl
    | TryTable bt cs body =>
      simp only [depthInstr] at h
      simp only [dropWithin]
      rw [dropVec_within d body (shallow_down h)]
      try rfl
    | If bt body e =>
      simp only [depthInstr] at h
      simp only [dropWithin]
      rw [dropVec_within d body (shallow_down (by omega)), dropOpt_within d e (by cases e with | none => trivial | some is => exact shallow_down (by simp only [depthOpt] at h; omega))]
      try rfl
    | _ => rfl
theorem dropVec_within : ∀ (d : Nat) (is : List Instr), Shallow d is → dropVecWithin d is = some ()
  | d, [], _ => by simp [dropVecWithin]
  | d, i :: is, h => by
    obtain ⟨h1, h2⟩ := shallow_cons h
    simp only [dropVecWithin]
    rw [drop_within d i h1, dropVec_within d is h2]
    try rfl
theorem dropOpt_within : ∀ (d : Nat) (o : Option (List Instr)), ShallowOpt d o → dropOptWithin d o = some ()
  | d, none, _ => by simp [dropOptWithin]
  | d, some is, h => by
    simp only [dropOptWithin]
    rw [dropVec_within d is h]
    try rfl
end

mutual
theorem clone_within : ∀ (d : Nat) (i : Instr), depthInstr i < d → cloneWithin d i = some i
  | 0, i, h => absurd h (Nat.not_lt_zero _)
  | d + 1, i, h => by
    cases i with
    | Block bt body =>
      simp only [depthInstr] at h
      simp only [cloneWithin]
      rw [cloneVec_within d body (shallow_down h)]
      try rfl
    | Loop bt body =>
      simp only [depthInstr] at h
      simp only [cloneWithin]
      rw [cloneVec_within d body (shallow_down h)]
      try rfl
    | TryTable bt cs body =>
      simp only [depthInstr] at h
      simp only [cloneWithin]
      rw [cloneVec_within d body (shallow_down h)]
      try rfl
    | If bt body e =>
      simp only [depthInstr] at h
      simp only [cloneWithin]
      rw [cloneVec_within d body (shallow_down (by omega)), cloneOpt_within d e (by cases e with | none => trivial | some is => exact shallow_down (by simp only [depthOpt] at h; omega))]
      try rfl
    | _ => rfl
theorem cloneVec_within : ∀ (d : Nat) (is : List Instr), Shallow d is → cloneVecWithin d is = some is
  | d, [], _ => by simp [cloneVecWithin]
  | d, i :: is, h => by
    obtain ⟨h1, h2⟩ := shallow_cons h
    simp only [cloneVecWithin]
    rw [clone_within d i h1, cloneVec_within d is h2]
    try rfl
theorem cloneOpt_within : ∀ (d : Nat) (o : Option (List Instr)), ShallowOpt d o → cloneOptWithin d o = some o
  | d, none, _ => by simp [cloneOptWithin]
  | d, some is, h => by
    simp only [cloneOptWithin]
    rw [cloneVec_within d is h]
    try rfl
end

section
variable (t : StdText)

mutual
theorem dbg_within : ∀ (d : Nat) (i : Instr), depthInstr i < d → dbgWithin t d i = some (i.dbg t)
  | 0, i, h => absurd h (Nat.not_lt_zero _)
  | d + 1, i, h => by
    cases i with
    | Block bt body =>
      simp only [depthInstr] at h
      simp only [dbgWithin, Instr.dbg]
      rw [dbgVec_within d body (shallow_down h)]
      try rfl
    | Loop bt body =>
      simp only [depthInstr] at h
      simp only [dbgWithin, Instr.dbg]
      rw [dbgVec_within d body (shallow_down h)]
      try rfl
    | TryTable bt cs body =>
      simp only [depthInstr] at h
      simp only [dbgWithin, Instr.dbg]
      rw [dbgVec_within d body (shallow_down h)]
      try rfl
    | If bt body e =>
      simp only [depthInstr] at h
      simp only [dbgWithin, Instr.dbg]
      rw [dbgVec_within d body (shallow_down (by omega)), dbgOpt_within d e (by cases e with | none => trivial | some is => exact shallow_down (by simp only [depthOpt] at h; omega))]
      try rfl
    | _ => rfl
theorem dbgVec_within : ∀ (d : Nat) (is : List Instr), Shallow d is → dbgVecWithin t d is = some (instrsDbg t is)
  | d, [], _ => by simp [dbgVecWithin, instrsDbg]
  | d, i :: is, h => by
    obtain ⟨h1, h2⟩ := shallow_cons h
    simp only [dbgVecWithin, instrsDbg]
    rw [dbg_within d i h1, dbgVec_within d is h2]
    try rfl
theorem dbgOpt_within : ∀ (d : Nat) (o : Option (List Instr)), ShallowOpt d o → dbgOptWithin t d o = some (instrsOptDbg t o)
  | d, none, _ => by simp [dbgOptWithin, instrsOptDbg]
  | d, some is, h => by
    simp only [dbgOptWithin, instrsOptDbg]
    rw [dbgVec_within d is h]
    try rfl
end

end

/-- `a` runs its course within the room. -/
theorem andWithin_some {a : Option Bool} {x : Bool} {b : Unit → Option Bool} {y : Bool} (ha : a = some x) (hb : x = true → b () = some y) :
    andWithin a b = some (x && y) := by
  subst ha
  cases x with
  | false => rfl
  | true => exact hb rfl

theorem instrsEq_length : ∀ is js : List Instr, instrsEq is js = true → is.length = js.length
  | [], [], _ => rfl
  | [], _ :: _, h => by simp [instrsEq] at h
  | _ :: _, [], h => by simp [instrsEq] at h
  | _ :: is, _ :: js, h => by
    simp only [instrsEq, Bool.and_eq_true] at h
    simp [instrsEq_length is js h.2]

theorem ofLength_some {α : Type} {a b : List α} {x : Unit → Option Bool} {y : Bool} (hl : y = true → a.length = b.length)
    (hx : a.length = b.length → x () = some y) : ofLength a b x = some y := by
  unfold ofLength
  split
  · exact hx ‹_›
  · cases y with
    | false => rfl
    | true => exact absurd (hl rfl) ‹_›

theorem ofLength_within {is js : List Instr} {x : Unit → Option Bool} (hx : is.length = js.length → x () = some (instrsEq is js)) :
    ofLength is js x = some (instrsEq is js) := ofLength_some (instrsEq_length is js) hx

theorem vecEq_length {α : Type} {g : α → α → Bool} : ∀ l l' : List α, vecEq g l l' = true → l.length = l'.length
  | [], [], _ => rfl
  | [], _ :: _, h => by simp [vecEq] at h
  | _ :: _, [], h => by simp [vecEq] at h
  | _ :: l, _ :: l', h => by
    simp only [vecEq, Bool.and_eq_true] at h
    simp [vecEq_length l l' h.2]

mutual
theorem eq_within : ∀ (d : Nat) (i o : Instr), depthInstr i < d ∨ depthInstr o < d → eqWithin d i o = some (Instr.eq i o)
  | 0, i, o, h => absurd h (by omega)
  | d + 1, i, o, h => by
    cases i with
    | Block bt body =>
      cases o with
      | Block bt' body' =>
        simp only [depthInstr] at h
        simp only [eqWithin, Instr.eq]
        exact andWithin_some rfl fun _ => ofLength_within fun _ => eqItems_within d body body' (h.imp shallow_down shallow_down)
      | _ => rfl
    | Loop bt body =>
      cases o with
      | Loop bt' body' =>
        simp only [depthInstr] at h
        simp only [eqWithin, Instr.eq]
        exact andWithin_some rfl fun _ => ofLength_within fun _ => eqItems_within d body body' (h.imp shallow_down shallow_down)
      | _ => rfl
    | TryTable bt cs body =>
      cases o with
      | TryTable bt' cs' body' =>
        simp only [depthInstr] at h
        simp only [eqWithin, Instr.eq]
        exact andWithin_some rfl fun _ => ofLength_within fun _ => eqItems_within d body body' (h.imp shallow_down shallow_down)
      | _ => rfl
    | If bt body e =>
      cases o with
      | If bt' body' e' =>
        simp only [depthInstr] at h
        simp only [eqWithin, Instr.eq, Bool.and_assoc]
        refine andWithin_some rfl fun _ => andWithin_some (ofLength_within fun _ => eqItems_within d body body' (h.imp (fun h => shallow_down (by omega))
          fun h => shallow_down (by omega))) fun _ => eqOpt_within d e e' (h.imp (fun h => ?_) fun h => ?_)
        · cases e with
          | none => trivial
          | some is => exact shallow_down (by simp only [depthOpt] at h; omega)
        · cases e' with
          | none => trivial
          | some is => exact shallow_down (by simp only [depthOpt] at h; omega)
      | _ => rfl
    | _ => rfl
theorem eqItems_within : ∀ (d : Nat) (is js : List Instr), Shallow d is ∨ Shallow d js → eqItemsWithin d is js = some (instrsEq is js)
  | d, [], js, _ => by cases js <;> simp [eqItemsWithin, instrsEq]
  | d, i :: is, [], _ => by simp [eqItemsWithin, instrsEq]
  | d, i :: is, j :: js, h => by
    simp only [eqItemsWithin, instrsEq]
    exact andWithin_some (eq_within d i j (h.imp (fun h => (shallow_cons h).1) fun h => (shallow_cons h).1)) fun _ =>
      eqItems_within d is js (h.imp (fun h => (shallow_cons h).2) fun h => (shallow_cons h).2)
theorem eqOpt_within : ∀ (d : Nat) (o o' : Option (List Instr)), ShallowOpt d o ∨ ShallowOpt d o' →
    eqOptWithin d o o' = some (instrsOptEq o o')
  | d, none, o', _ => by cases o' <;> simp [eqOptWithin, instrsOptEq]
  | d, some is, none, _ => by simp [eqOptWithin, instrsOptEq]
  | d, some is, some js, h => by
    simp only [eqOptWithin, instrsOptEq]
    exact ofLength_within fun _ => eqItems_within d is js h
end

theorem eqVec_within (d : Nat) (is js : List Instr) (h : Shallow d is ∨ Shallow d js) : eqVecWithin d is js = some (instrsEq is js) :=
  ofLength_within fun _ => eqItems_within d is js h

/-! ### Modules -/

theorem each_within {α β : Type} {f : α → Option β} {g : α → β} : ∀ (l : List α), (∀ a ∈ l, f a = some (g a)) →
    eachWithin f l = some (l.map g)
  | [], _ => rfl
  | a :: l, h => by
    simp only [eachWithin]
    rw [h a List.mem_cons_self, each_within l fun b hb => h b (List.mem_cons_of_mem _ hb)]
    rfl

theorem deepest_bound {l : List Expr} {e : Expr} (h : e ∈ l) : depthInstrs e ≤ deepest l := by
  induction l with
  | nil => cases h
  | cons a l ih =>
    simp only [deepest, List.foldr_cons]
    rcases List.mem_cons.1 h with rfl | h
    · omega
    · have := ih h
      simp only [deepest] at this
      omega

/-- All expressions of a module are as shallow as it is. -/
theorem exprs_depth {m : Module} {e : Expr} (h : e ∈ m.exprs) : depthInstrs e ≤ depthModule m := by
  simp only [Module.exprs, List.mem_append] at h
  unfold depthModule
  rcases h with (((h | h) | h) | h) | h
  · have := deepest_bound h
    omega
  · have := deepest_bound h
    omega
  · have := deepest_bound h
    omega
  · exact Nat.le_trans (deepest_bound h) (Nat.le_trans (Nat.le_max_left _ _) (Nat.le_trans (Nat.le_max_right _ _)
      (Nat.le_trans (Nat.le_max_right _ _) (Nat.le_max_right _ _))))
  · exact Nat.le_trans (deepest_bound h) (Nat.le_trans (Nat.le_max_right _ _) (Nat.le_trans (Nat.le_max_right _ _)
      (Nat.le_trans (Nat.le_max_right _ _) (Nat.le_max_right _ _))))

theorem itemsEq_within {α : Type} {f : α → α → Option Bool} {g : α → α → Bool} : ∀ (l l' : List α),
    (∀ a ∈ l, ∀ b ∈ l', f a b = some (g a b)) → itemsEqWithin f l l' = some (vecEq g l l')
  | [], [], _ => rfl
  | [], _ :: _, _ => rfl
  | _ :: _, [], _ => rfl
  | a :: l, b :: l', h => by
    simp only [itemsEqWithin, vecEq]
    exact andWithin_some (h a List.mem_cons_self b List.mem_cons_self) fun _ =>
      itemsEq_within l l' fun a ha b hb => h a (List.mem_cons_of_mem _ ha) b (List.mem_cons_of_mem _ hb)

theorem vecEq_within {α : Type} {f : α → α → Option Bool} {g : α → α → Bool} (l l' : List α)
    (h : ∀ a ∈ l, ∀ b ∈ l', f a b = some (g a b)) : vecEqWithin f l l' = some (vecEq g l l') :=
  ofLength_some (vecEq_length l l') fun _ => itemsEq_within l l' h

/-- Either all expressions of `a` or all of `b` are shallow. -/
theorem module_eq_within (d : Nat) (a b : Module)
    (h : (∀ e ∈ a.exprs, Shallow d e) ∨ ∀ e ∈ b.exprs, Shallow d e) : Module.eqWithin d a b = some (Module.eq a b) := by
  simp only [Module.exprs, List.mem_append, List.mem_map, List.mem_flatMap] at h
  have hf : vecEqWithin (Func.eqWithin d) a.funcs b.funcs = some (vecEq Func.eq a.funcs b.funcs) :=
    vecEq_within _ _ fun x hx y hy => andWithin_some rfl fun _ => eqVec_within _ _ _ (h.imp
      (fun h => h _ (.inl (.inl (.inl (.inl ⟨x, hx, rfl⟩))))) fun h => h _ (.inl (.inl (.inl (.inl ⟨y, hy, rfl⟩)))))
  have ht : vecEqWithin (Table.eqWithin d) a.tables b.tables = some (vecEq Table.eq a.tables b.tables) :=
    vecEq_within _ _ fun x hx y hy => andWithin_some rfl fun _ => eqVec_within _ _ _ (h.imp
      (fun h => h _ (.inl (.inl (.inl (.inr ⟨x, hx, rfl⟩))))) fun h => h _ (.inl (.inl (.inl (.inr ⟨y, hy, rfl⟩)))))
  have hg : vecEqWithin (Global.eqWithin d) a.globals b.globals = some (vecEq Global.eq a.globals b.globals) :=
    vecEq_within _ _ fun x hx y hy => andWithin_some rfl fun _ => eqVec_within _ _ _ (h.imp
      (fun h => h _ (.inl (.inl (.inr ⟨x, hx, rfl⟩)))) fun h => h _ (.inl (.inl (.inr ⟨y, hy, rfl⟩))))
  have he : vecEqWithin (Elem.eqWithin d) a.elems b.elems = some (vecEq Elem.eq a.elems b.elems) := by
    refine vecEq_within _ _ fun x hx y hy => ?_
    have h1 : vecEqWithin (eqVecWithin d) x.init y.init = some (vecEq Expr.eq x.init y.init) :=
      vecEq_within _ _ fun u hu v hv => eqVec_within _ _ _ (h.imp
        (fun h => h _ (.inl (.inr ⟨x, hx, .inl hu⟩))) fun h => h _ (.inl (.inr ⟨y, hy, .inl hv⟩)))
    simp only [Elem.eq, Bool.and_assoc]
    refine andWithin_some rfl fun _ => andWithin_some h1 fun _ => ?_
    obtain ⟨_, _, mx⟩ := x
    obtain ⟨_, _, my⟩ := y
    cases mx with
    | Active tx ox =>
      cases my with
      | Active ty oy =>
        simp only [ElemMode.eqWithin, ElemMode.eq, Expr.eq]
        exact andWithin_some rfl fun _ => eqVec_within _ _ _ (h.imp
          (fun h => h _ (.inl (.inr ⟨_, hx, .inr List.mem_cons_self⟩))) fun h => h _ (.inl (.inr ⟨_, hy, .inr List.mem_cons_self⟩)))
      | _ => rfl
    | _ => rfl
  have hd : vecEqWithin (Data.eqWithin d) a.datas b.datas = some (vecEq Data.eq a.datas b.datas) := by
    refine vecEq_within _ _ fun x hx y hy => andWithin_some rfl fun _ => ?_
    obtain ⟨_, mx⟩ := x
    obtain ⟨_, my⟩ := y
    cases mx with
    | Active tx ox =>
      cases my with
      | Active ty oy =>
        simp only [DataMode.eqWithin, DataMode.eq, Expr.eq]
        exact andWithin_some rfl fun _ => eqVec_within _ _ _ (h.imp
          (fun h => h _ (.inr ⟨_, hx, List.mem_cons_self⟩)) fun h => h _ (.inr ⟨_, hy, List.mem_cons_self⟩))
      | _ => rfl
    | _ => rfl
  have key : Module.eq a b = ((decide (a.version = b.version) && decide (a.parsed_section_kinds = b.parsed_section_kinds) &&
      decide (a.section_headers = b.section_headers) && decide (a.custom_sections = b.custom_sections) &&
      decide (a.types = b.types)) && (vecEq Func.eq a.funcs b.funcs && (vecEq Table.eq a.tables b.tables &&
      (decide (a.mems = b.mems) && (vecEq Global.eq a.globals b.globals && (vecEq Elem.eq a.elems b.elems &&
      (decide (a.data_count = b.data_count) && (vecEq Data.eq a.datas b.datas &&
      (decide (a.start = b.start) && decide (a.imports = b.imports) && decide (a.exports = b.exports) &&
        decide (a.tags = b.tags)))))))))) := by
    simp only [Module.eq, Bool.and_assoc]
  rw [key]
  exact andWithin_some rfl fun _ => andWithin_some hf fun _ => andWithin_some ht fun _ => andWithin_some rfl fun _ =>
    andWithin_some hg fun _ => andWithin_some he fun _ => andWithin_some rfl fun _ => andWithin_some hd fun _ => rfl

end Wadec
