import Verif.Proof.Usage
import Verif.Proof.Equality
import Verif.Spec.Usage

/-! Which room the derived impls need exactly (C83). -/

namespace Wadec

open Spec

/-- what is one level inside -/
def bodies : Instr → List Instr
  | .Block _ is => is
  | .Loop _ is => is
  | .If _ is e => is ++ e.getD []
  | .TryTable _ _ is => is
  | _ => []

theorem mem_bodies {i j : Instr} : j ∈ bodies i ↔ Within1 j i := by
  constructor
  · intro h
    cases i with
    | Block bt is => exact .block h
    | Loop bt is => exact .loop h
    | TryTable bt cs is => exact .tryTable h
    | If bt is e =>
      rcases List.mem_append.1 h with h | h
      · exact .then h
      · cases e with
        | none => cases h
        | some e => exact .else h
    | _ => cases h
  · intro h
    cases h with
    | block h => exact h
    | loop h => exact h
    | tryTable h => exact h
    | «then» h => exact List.mem_append_left _ h
    | «else» h => exact List.mem_append_right _ h

/-- Exactly what is to be proved of a limited function: it runs out of room if it does on one of the bodies. -/
theorem reaches_iff {α : Type} (f : Nat → Instr → Option α) (h0 : ∀ i, f 0 i = none)
    (hs : ∀ d i, f (d + 1) i = none ↔ ∃ j ∈ bodies i, f d j = none) : ∀ d i, f d i = none ↔ Reaches d i
  | 0, i => by simp only [h0, true_iff]; exact .here
  | d + 1, i => by
    rw [hs]
    constructor
    · rintro ⟨j, hj, h⟩
      exact .down (mem_bodies.1 hj) ((reaches_iff f h0 hs d j).1 h)
    · intro h
      cases h with
      | down h1 h2 => exact ⟨_, mem_bodies.2 h1, (reaches_iff f h0 hs d _).2 h2⟩

theorem dropVec_none (d : Nat) : ∀ is : List Instr, dropVecWithin d is = none ↔ ∃ j ∈ is, dropWithin d j = none
  | [] => by simp [dropVecWithin]
  | i :: is => by
    simp only [dropVecWithin, List.mem_cons, exists_eq_or_imp]
    have ih := dropVec_none d is
    cases h : dropWithin d i with
    | none => simp
    | some u => simp [ih]

theorem drop_none (d : Nat) (i : Instr) : dropWithin d i = none ↔ Reaches d i := by
  refine reaches_iff dropWithin (fun i => by rw [dropWithin]) (fun d i => ?_) d i
  cases i with
  | If bt is e =>
    simp only [dropWithin, bodies, List.mem_append, or_and_right, exists_or, ← dropVec_none]
    cases h : dropVecWithin d is with
    | none => simp
    | some u => cases e <;> simp [dropOptWithin, dropVecWithin]
  | Block | Loop | TryTable => simp only [dropWithin, bodies, dropVec_none]
  | _ => simp [dropWithin, bodies]

theorem cloneVec_none (d : Nat) : ∀ is : List Instr, cloneVecWithin d is = none ↔ ∃ j ∈ is, cloneWithin d j = none
  | [] => by simp [cloneVecWithin]
  | i :: is => by
    simp only [cloneVecWithin, List.mem_cons, exists_eq_or_imp]
    have ih := cloneVec_none d is
    cases h : cloneWithin d i with
    | none => simp
    | some u => simp [ih]

theorem clone_none (d : Nat) (i : Instr) : cloneWithin d i = none ↔ Reaches d i := by
  refine reaches_iff cloneWithin (fun i => by rw [cloneWithin]) (fun d i => ?_) d i
  cases i with
  | If bt is e =>
    simp only [cloneWithin, bodies, List.mem_append, or_and_right, exists_or, ← cloneVec_none]
    cases h : cloneVecWithin d is with
    | none => simp
    | some u => cases e <;> simp [cloneOptWithin, cloneVecWithin]
  | Block | Loop | TryTable => simp only [cloneWithin, bodies, cloneVec_none, Option.map_eq_none_iff]
  | _ => simp [cloneWithin, bodies]

theorem dbgVec_none (t : StdText) (d : Nat) : ∀ is : List Instr, dbgVecWithin t d is = none ↔ ∃ j ∈ is, dbgWithin t d j = none
  | [] => by simp [dbgVecWithin]
  | i :: is => by
    simp only [dbgVecWithin, List.mem_cons, exists_eq_or_imp]
    have ih := dbgVec_none t d is
    cases h : dbgWithin t d i with
    | none => simp
    | some u => simp [ih]

theorem dbg_none (t : StdText) (d : Nat) (i : Instr) : dbgWithin t d i = none ↔ Reaches d i := by
  refine reaches_iff (dbgWithin t) (fun i => by rw [dbgWithin]) (fun d i => ?_) d i
  cases i with
  | If bt is e =>
    simp only [dbgWithin, bodies, List.mem_append, or_and_right, exists_or, ← dbgVec_none]
    cases h : dbgVecWithin t d is with
    | none => simp
    | some u => cases e <;> simp [dbgOptWithin, dbgVecWithin]
  | Block | Loop | TryTable => simp only [dbgWithin, bodies, dbgVec_none, Option.map_eq_none_iff]
  | _ => simp [dbgWithin, bodies]

theorem each_none {α β : Type} {f : α → Option β} : ∀ l : List α, eachWithin f l = none ↔ ∃ a ∈ l, f a = none
  | [] => by simp [eachWithin]
  | a :: as => by
    simp only [eachWithin, List.mem_cons, exists_eq_or_imp]
    have ih := each_none (f := f) as
    cases h : f a with
    | none => simp
    | some b =>
      cases h' : eachWithin f as with
      | none => simp [ih.1 h']
      | some bs =>
        have : ¬ ∃ a ∈ as, f a = none := fun x => by rw [ih.2 x] at h'; cases h'
        simp [this]

theorem mem_exprs {m : Module} {e : Expr} : e ∈ m.exprs ↔ HasExpr e m := by
  simp only [Module.exprs, List.mem_append, List.mem_map, List.mem_flatMap]
  constructor
  · rintro ((((⟨f, hf, h⟩ | ⟨f, hf, h⟩) | ⟨f, hf, h⟩) | ⟨f, hf, h⟩) | ⟨f, hf, h⟩)
    · exact .func hf h
    · exact .table hf h
    · exact .global hf h
    · rcases h with h | h
      · exact .elem hf h
      · cases hm : f.mode with
        | Active t o =>
          simp only [hm, List.mem_singleton] at h
          exact .elemOffset hf (by rw [hm, h])
        | _ => simp [hm] at h
    · cases hm : f.mode with
      | Active t o =>
        simp only [hm, List.mem_singleton] at h
        exact .dataOffset hf (by rw [hm, h])
      | _ => simp [hm] at h
  · rintro (⟨hf, h⟩ | ⟨hf, h⟩ | ⟨hf, h⟩ | ⟨hf, h⟩ | ⟨hf, h⟩ | ⟨hf, h⟩)
    · exact .inl (.inl (.inl (.inl ⟨_, hf, h⟩)))
    · exact .inl (.inl (.inl (.inr ⟨_, hf, h⟩)))
    · exact .inl (.inl (.inr ⟨_, hf, h⟩))
    · exact .inl (.inr ⟨_, hf, .inl h⟩)
    · exact .inl (.inr ⟨_, hf, .inr (by simp [h])⟩)
    · exact .inr ⟨_, hf, by simp [h]⟩

/-! ### Comparing an instruction with itself -/

/-- what comparing with itself gives: nothing, or that it is equal -/
def Selfsame (P : Prop) (x : Option Bool) : Prop := (P → x = none) ∧ (¬ P → x = some true)

theorem Selfsame.and {P Q : Prop} {a : Option Bool} {b : Unit → Option Bool} (ha : Selfsame P a) (hb : Selfsame Q (b ())) :
    Selfsame (P ∨ Q) (andWithin a b) := by
  by_cases hp : P
  · rw [ha.1 hp]
    exact ⟨fun _ => rfl, fun h => absurd (.inl hp) h⟩
  · rw [ha.2 hp]
    exact ⟨fun h => hb.1 (h.resolve_left hp), fun h => hb.2 fun q => h (.inr q)⟩

theorem Selfsame.iff {P Q : Prop} {x : Option Bool} (h : Selfsame P x) (e : Q ↔ P) : Selfsame Q x :=
  ⟨fun q => h.1 (e.1 q), fun q => h.2 fun p => q (e.2 p)⟩

theorem Selfsame.first {P : Prop} {a : Bool} {b : Unit → Option Bool} (ha : a = true) (hb : Selfsame P (b ())) :
    Selfsame P (andWithin (some a) b) := by subst ha; exact hb

theorem ofLength_self {α : Type} (a : List α) (x : Unit → Option Bool) : ofLength a a x = x () := by simp [ofLength]

theorem eqItems_self {d : Nat} (hd : ∀ i, Instr.eq i i = true → Selfsame (Reaches d i) (eqWithin d i i)) :
    ∀ is : List Instr, instrsEq is is = true → Selfsame (∃ j ∈ is, Reaches d j) (eqItemsWithin d is is)
  | [], _ => ⟨fun h => by simp at h, fun _ => rfl⟩
  | i :: is, he => by
    simp only [instrsEq, Bool.and_eq_true] at he
    simp only [eqItemsWithin]
    exact ((hd i he.1).and (eqItems_self hd is he.2)).iff (by simp)

theorem reaches_succ {d : Nat} {i : Instr} : Reaches (d + 1) i ↔ ∃ j ∈ bodies i, Reaches d j :=
  ⟨fun h => by cases h with | down h1 h2 => exact ⟨_, mem_bodies.2 h1, h2⟩, fun ⟨_, h1, h2⟩ => .down (mem_bodies.1 h1) h2⟩

theorem eq_self : ∀ (d : Nat) (i : Instr), Instr.eq i i = true → Selfsame (Reaches d i) (eqWithin d i i)
  | 0, i, _ => ⟨fun _ => by rw [eqWithin], fun h => absurd .here h⟩
  | d + 1, i, he => by
    have ih := eqItems_self (eq_self d)
    refine Selfsame.iff (P := ∃ j ∈ bodies i, Reaches d j) ?_ reaches_succ
    cases i with
    | Block bt is | Loop bt is =>
      simp only [Instr.eq, decide_true, Bool.true_and] at he
      simp only [eqWithin, bodies, ofLength_self]
      exact .first (by simp) (ih is he)
    | TryTable bt cs is =>
      simp only [Instr.eq, decide_true, Bool.true_and] at he
      simp only [eqWithin, bodies, ofLength_self]
      exact .first (by simp) (ih is he)
    | If bt is e =>
      simp only [Instr.eq, decide_true, Bool.true_and, Bool.and_eq_true] at he
      simp only [eqWithin, bodies, ofLength_self]
      refine .first (by simp) (Selfsame.iff (Selfsame.and (Q := ∃ j ∈ e.getD [], Reaches d j) (ih is he.1) ?_)
        (by simp [or_and_right, exists_or]))
      cases e with
      | none => exact ⟨fun h => by simp at h, fun _ => rfl⟩
      | some js =>
        simp only [eqOptWithin, ofLength_self]
        exact ih js he.2
    | _ => exact ⟨fun h => by simp [bodies] at h, fun _ => by rw [← he]; rfl⟩

theorem eq_none_iff (d : Nat) (i : Instr) (he : Instr.eq i i = true) : eqWithin d i i = none ↔ Reaches d i :=
  ⟨fun h => Classical.byContradiction fun h' => (by rw [(eq_self d i he).2 h'] at h; cases h), (eq_self d i he).1⟩

end Wadec
