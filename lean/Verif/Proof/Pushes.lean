import Verif.Proof.PaysModule
import Verif.Proof.StepsSameAll

/-! C69: the price of pushing a local is paid once for every local of the module. -/

namespace Wadec.Counted

variable {R : Type} {ε ε' α β σ : Type}

/-- the locals of the functions -/
def pushed (fs : List Func) : Nat := (fs.map (fun f => f.locals.length)).sum

/-- `d1` takes the steps of `d0`, and if they succeed `push` more for everything that `after` counts and `before` does not. -/
def Extra (push : Nat) (before : Nat) (d1 d0 : Dec R ε α) (after : α → Nat) : Prop :=
  ∀ r, (d1 r).1 = (d0 r).1 ∧ ∀ v r' n, d0 r = ((.ok v, r'), n) → (d1 r).2 + push * before = n + push * after v

namespace Extra
variable {push before : Nat} {d1 d0 : Dec R ε α} {after : α → Nat}

theorem refl {d : Dec R ε α} (h : Gives d (fun v => after v = before)) : Extra push before d d after := by
  intro r
  refine ⟨rfl, fun v r' n hr => ?_⟩
  rw [hr, h r v r' n hr]

theorem step (h : Extra push before d1 d0 after) : Extra push before (Dec.step d1) (Dec.step d0) after := by
  intro r
  refine ⟨(h r).1, fun v r' n hr => ?_⟩
  simp only [Dec.step, Dec.more] at hr ⊢
  cases hd : d0 r with
  | mk x m =>
    rw [hd] at hr
    cases hr
    have := (h r).2 _ _ _ hd
    omega

theorem bind {f1 f0 : α → Dec R ε β} {after' : β → Nat} (h : Extra push before d1 d0 after)
    (hf : ∀ v, Extra push (after v) (f1 v) (f0 v) after') : Extra push before (d1 >>= f1) (d0 >>= f0) after' := by
  intro r
  have h1 := h r
  cases hd : d0 r with
  | mk x m =>
    cases hd1 : d1 r with
    | mk x1 m1 =>
      rw [hd, hd1] at h1
      obtain ⟨h1, h2⟩ := h1
      simp only at h1
      subst h1
      obtain ⟨res, r1⟩ := x1
      simp only [Bind.bind, Dec.bind, hd, hd1]
      cases res with
      | ok v =>
        have h3 := hf v r1
        have h2 := h2 v r1 m rfl
        simp only [Dec.more]
        refine ⟨h3.1, fun w r2 n hw => ?_⟩
        cases hx : f0 v r1 with
        | mk y k =>
          rw [hx] at hw
          cases hw
          have := h3.2 _ _ _ hx
          simp only at h2
          omega
      | _ => exact ⟨rfl, fun w r2 n hw => by cases hw⟩

theorem take {d1 d0 : Dec (Take R) ε α} (k : Nat) (h : Extra push before d1 d0 after) :
    Extra push before (Dec.withTake k d1) (Dec.withTake k d0) (fun x => after x.1) := by
  intro r
  have h1 := h ⟨k, r⟩
  cases hd : d0 ⟨k, r⟩ with
  | mk x m =>
    cases hd1 : d1 ⟨k, r⟩ with
    | mk x1 m1 =>
      rw [hd, hd1] at h1
      obtain ⟨h1, h2⟩ := h1
      simp only at h1
      subst h1
      obtain ⟨res, r1⟩ := x1
      simp only [Dec.withTake, hd, hd1]
      cases res with
      | ok v =>
        refine ⟨rfl, fun w r2 n hw => ?_⟩
        cases hw
        exact h2 v r1 m rfl
      | _ => exact ⟨rfl, fun w r2 n hw => by cases hw⟩

end Extra

theorem counts_eq (ls : List Local) : (expandLocals ls).length = (ls.map (fun l => l.count.toNat)).sum := by
  simp only [expandLocals, List.length_flatMap, List.length_replicate]

theorem pushed_set : ∀ (fs : List Func) (i : Nat) (f g : Func), fs[i]? = some f →
    pushed (fs.set i g) + f.locals.length = pushed fs + g.locals.length
  | [], i, f, g, h => by cases i <;> cases h
  | x :: fs, 0, f, g, h => by
    cases h
    simp only [pushed, List.set_cons_zero, List.map_cons, List.sum_cons]
    omega
  | x :: fs, i + 1, f, g, h => by
    have := pushed_set fs i f g h
    simp only [pushed, List.set_cons_succ, List.map_cons, List.sum_cons] at *
    omega

variable [Read R]

theorem extra_fill (push : Nat) : ∀ codes i funcs enc,
    Extra (R := R) push (pushed funcs) (fillFuncs push codes i funcs enc) (fillFuncs 0 codes i funcs enc) (fun x => pushed x.1)
  | [], _, _, _ => Extra.refl (Gives.step (Gives.pure rfl))
  | code :: codes, i, funcs, enc => by
    unfold fillFuncs
    refine Extra.step ?_
    cases hf : funcs[i]? with
    | none => exact Extra.refl Gives.panic
    | some f =>
      refine Extra.bind (after := fun _ => pushed funcs + (expandLocals code.locals).length) ?_ fun _ => ?_
      · intro r
        refine ⟨rfl, fun v r' n h => ?_⟩
        cases h
        rw [counts_eq, Nat.mul_add]
        simp only [Dec.charge]
        omega
      · have := extra_fill push codes (i + 1)
          (funcs.set i { f with locals := f.locals ++ expandLocals code.locals, body := code.expr })
          (if code.encountered_data_index then true else enc)
        have h2 := pushed_set funcs i f { f with locals := f.locals ++ expandLocals code.locals, body := code.expr } hf
        rw [List.length_append] at h2
        have h3 : pushed funcs + (expandLocals code.locals).length = pushed (funcs.set i
            { f with locals := f.locals ++ expandLocals code.locals, body := code.expr }) := by omega
        rw [h3]
        exact this

theorem extra_body (push : Nat) (kind : SectionKind) (st : LoopState) :
    Extra (R := R) push (pushed st.module.funcs) (decodeSectionBody push kind st) (decodeSectionBody 0 kind st)
      (fun st => pushed st.module.funcs) := by
  unfold decodeSectionBody
  refine Extra.step ?_
  dsimp only
  cases kind with
  | Code =>
    dsimp only
    refine Extra.bind (after := fun _ => pushed st.module.funcs) (Extra.refl fun _ _ _ _ _ => rfl) fun codes => ?_
    split
    · exact Extra.refl Gives.err
    · exact Extra.bind (extra_fill push codes 0 _ _) fun ⟨_, _⟩ => Extra.refl (Gives.pure rfl)
  | Function =>
    dsimp only
    refine Extra.refl (Gives.bind fun idxs => Gives.bind fun _ => Gives.pure ?_)
    simp only [pushed, List.map_append, List.sum_append, List.map_map]
    have : (idxs.map ((fun f : Func => f.locals.length) ∘ fun type_idx => ⟨type_idx, [], []⟩)).sum = 0 := by
      induction idxs with
      | nil => rfl
      | cons _ _ ih => rw [List.map_cons, List.sum_cons, ih]; rfl
    rw [this]; rfl
  | Data =>
    dsimp only
    refine Extra.refl (Gives.bind fun idxs => ?_)
    split
    · split
      · exact Gives.err
      · exact Gives.pure rfl
    · exact Gives.pure rfl
  | _ => exact Extra.refl (Gives.bind fun _ => Gives.pure rfl)

theorem extra_section (push : Nat) (h : SectionHeader) (st : LoopState) :
    Extra (R := R) push (pushed st.module.funcs) (decodeSection push h st) (decodeSection 0 h st)
      (fun st => pushed st.module.funcs) := by
  unfold decodeSection
  refine Extra.step ?_
  refine Extra.bind (after := fun _ => pushed st.module.funcs) (Extra.refl fun _ _ _ _ _ => rfl) fun _ => ?_
  refine Extra.bind (Extra.take _ (extra_body push _ _)) fun ⟨_, _⟩ => ?_
  dsimp only
  split
  · exact Extra.refl Gives.err
  · exact Extra.refl (Gives.pure rfl)

theorem extra_loop (push : Nat) : ∀ n st,
    Extra (R := R) push (pushed st.module.funcs) (sectionLoop push n st) (sectionLoop 0 n st)
      (fun st => pushed st.module.funcs)
  | 0, _ => Extra.refl (Gives.step fun _ _ _ _ h => by cases h)
  | n + 1, st => by
    unfold sectionLoop
    refine Extra.step ?_
    refine Extra.bind (after := fun _ => pushed st.module.funcs) (Extra.refl fun _ _ _ _ _ => rfl) fun h => ?_
    cases h with
    | none => exact Extra.refl (Gives.pure rfl)
    | some h => exact Extra.bind (extra_section push h st) fun st' => extra_loop push n st'

theorem extra_module (push : Nat) :
    Extra (R := R) push 0 (decodeModule push) (decodeModule 0) (fun m => pushed m.funcs) := by
  unfold decodeModule
  refine Extra.step ?_
  intro r
  refine Extra.bind (after := fun _ => 0) (Extra.refl fun _ _ _ _ _ => rfl) (fun _ => ?_) r
  refine Extra.bind (extra_loop push _ _) fun st => Extra.refl ?_
  unfold finalChecks
  gives
  exact Gives.pure rfl

end Wadec.Counted
