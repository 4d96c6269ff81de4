import Verif.Proof.TargetModule

/-! What a target with little room accepts, it had room for (C77). -/

namespace Wadec.Bounded

variable {R : Type} {ε ε' α β σ : Type} {T : Target}

/-- What `c` delivers on the target has `P`. -/
def Given (T : Target) (c : Dec R ε α) (P : α → Prop) : Prop := ∀ r a, (c r T).1 = .ok a → P a

namespace Given

theorem pure {P : α → Prop} {a : α} (h : P a) : Given (R := R) (ε := ε) T (Pure.pure a : Dec R ε α) P := fun _ _ e => by
  cases e; exact h

theorem err {P : α → Prop} {e : ε} : Given (R := R) T (Dec.err e : Dec R ε α) P := fun _ _ e => by cases e

theorem bind {P : α → Prop} {Q : β → Prop} {d : Dec R ε α} {g : α → Dec R ε β} (h : Given T d P)
    (hg : ∀ a, P a → Given T (g a) Q) : Given T (d >>= g) Q := by
  intro r b hb
  change (Dec.bind d g r T).1 = _ at hb
  unfold Dec.bind at hb
  have h3 := h r
  generalize d r T = x at hb h3
  obtain ⟨res, r'⟩ := x
  cases res with
  | ok a => exact hg a (h3 a rfl) r' b hb
  | _ => cases hb

theorem any {d : Dec R ε α} : Given T d (fun _ => True) := fun _ _ _ => trivial

theorem ite {P : α → Prop} {p : Prop} [Decidable p] {a b : Dec R ε α} (ha : p → Given T a P)
    (hb : ¬ p → Given T b P) : Given T (if p then a else b) P := by
  split <;> rename_i h
  · exact ha h
  · exact hb h

theorem take [Read R] {P : α → Prop} {n : Nat} {d : Dec (Take R) ε α} (h : Given T d P) :
    Given T (Dec.withTake n d) (fun x => P x.1) := by
  intro r b hb
  unfold Dec.withTake at hb
  have h3 := h ⟨n, r⟩
  generalize d ⟨n, r⟩ T = x at hb h3
  obtain ⟨res, r'⟩ := x
  cases res with
  | ok a => cases hb; exact h3 a rfl
  | _ => cases hb

end Given

/-- There is room for the locals of these functions. -/
def Grown (T : Target) (fs : List Func) : Prop := ∀ f ∈ fs, f.locals = [] ∨ T.grows f.locals.length = true

theorem Grown.nil {fs : List Func} (h : ∀ f ∈ fs, f.locals = []) : Grown T fs := fun f hf => .inl (h f hf)

theorem fill_grown : ∀ (codes : List Code) (i : Nat) (funcs : List Func) (enc : Bool),
    (∀ j f, i ≤ j → funcs[j]? = some f → f.locals = []) → Grown T funcs →
    Given (R := R) T (fillFuncs codes i funcs enc) (fun x => Grown T x.1)
  | [], _, _, _, _, h => Given.pure h
  | code :: codes, i, funcs, enc, h1, h2 => by
    unfold fillFuncs
    cases hf : funcs[i]? with
    | none => intro r a ha; cases ha
    | some f =>
      have h3 := h1 i f (Nat.le_refl _) hf
      refine Given.bind (P := fun _ => T.grows (expandLocals code.locals).length = true) ?_ fun _ hg => ?_
      · intro r a ha
        simp only [Dec.grow] at ha
        split at ha
        · assumption
        · cases ha
      · refine fill_grown codes (i + 1) _ _ ?_ ?_
        · intro j g hj hg'
          rw [List.getElem?_set_ne (by omega)] at hg'
          exact h1 j g (by omega) hg'
        · intro g hg'
          rcases List.mem_or_eq_of_mem_set hg' with hg' | rfl
          · exact h2 g hg'
          · right
            simp only [h3, List.nil_append]
            exact hg

/-- Before the code there are no locals, and after it there was room for them. -/
def Steady (T : Target) (st : LoopState) : Prop :=
  (Late st ∨ ∀ f ∈ st.module.funcs, f.locals = []) ∧ Grown T st.module.funcs

variable [Read R]

theorem validate_given (m : Module) (k : SectionKind) : Given (R := R) T (Module.validateSectionKindExpected m k)
    (fun _ => ∀ p, m.parsed_section_kinds.getLast? = some p → k ≠ .Custom → p.rank < k.rank) := by
  intro r a ha p hp hk
  simp only [Module.validateSectionKindExpected, Dec.lift, Wadec.Module.validateSectionKindExpected, hp, if_neg hk] at ha
  split at ha
  · cases ha
  · split at ha
    · cases ha
    · rename_i h1 h2
      have : k.rank ≠ p.rank := fun h => h2 (rank_inj h)
      omega

theorem section_given {h : SectionHeader} {st : LoopState} (hs : Steady T st) :
    Given (R := R) T (decodeSection h st) (Steady T) := by
  refine Given.bind (validate_given _ _) fun _ hv => ?_
  refine Given.bind (P := fun (x : LoopState × Nat) =>
    x.1.module.parsed_section_kinds = st.module.parsed_section_kinds ∧ Grown T x.1.module.funcs ∧
    (h.kind ≠ .Code → (Late st ∧ h.kind = .Custom) ∨ (Late st ∧ SectionKind.Code.rank < h.kind.rank) ∨ ∀ f ∈ x.1.module.funcs, f.locals = [])) ?_ ?_
  · refine Given.take (P := fun x : LoopState =>
      x.module.parsed_section_kinds = st.module.parsed_section_kinds ∧ Grown T x.module.funcs ∧
      (h.kind ≠ .Code → (Late st ∧ h.kind = .Custom) ∨ (Late st ∧ SectionKind.Code.rank < h.kind.rank) ∨ ∀ f ∈ x.module.funcs, f.locals = [])) ?_
    have hlate : Late st → h.kind ≠ .Custom → SectionKind.Code.rank < h.kind.rank := fun ⟨p, hp, hr⟩ hk =>
      Nat.lt_of_le_of_lt hr (hv p hp hk)
    have hc : ∀ x : LoopState, x.module.parsed_section_kinds = st.module.parsed_section_kinds → x.module.funcs = st.module.funcs →
        x.module.parsed_section_kinds = st.module.parsed_section_kinds ∧ Grown T x.module.funcs ∧
      (h.kind ≠ .Code → (Late st ∧ h.kind = .Custom) ∨ (Late st ∧ SectionKind.Code.rank < h.kind.rank) ∨ ∀ f ∈ x.module.funcs, f.locals = []) := by
      intro x h1 h2
      rw [h2]
      refine ⟨h1, hs.2, fun _ => ?_⟩
      rcases hs.1 with hl | hl
      · by_cases hk : h.kind = .Custom
        · exact .inl ⟨hl, hk⟩
        · exact .inr (.inl ⟨hl, hlate hl hk⟩)
      · exact .inr (.inr hl)
    generalize hk : h.kind = k at *
    cases k with
    | Code =>
      have hn : ∀ f ∈ st.module.funcs, f.locals = [] := hs.1.resolve_left fun hl => by
        have := hlate hl (by simp)
        omega
      refine Given.bind Given.any fun codes _ => Given.ite (fun _ => Given.err) fun _ => ?_
      refine Given.bind (fill_grown codes 0 _ _ (fun j f _ hf => hn f (List.mem_of_getElem? hf)) hs.2) fun ⟨fs, e⟩ hfs => ?_
      exact Given.pure ⟨rfl, hfs, fun hne => absurd rfl hne⟩
    | Function =>
      have hn : ∀ f ∈ st.module.funcs, f.locals = [] := hs.1.resolve_left fun hl => by
        have := hlate hl (by simp)
        simp only [SectionKind.rank] at this
        omega
      refine Given.bind Given.any fun idxs _ => Given.pure ?_
      have : ∀ f ∈ st.module.funcs ++ idxs.map (fun t => (⟨t, [], []⟩ : Func)), f.locals = [] := by
        intro f hf
        rcases List.mem_append.1 hf with hf | hf
        · exact hn f hf
        · obtain ⟨t, _, rfl⟩ := List.mem_map.1 hf; rfl
      exact ⟨rfl, Grown.nil this, fun _ => .inr (.inr this)⟩
    | Data =>
      refine Given.bind Given.any fun datas _ => ?_
      cases hd : st.module.data_count with
      | none => exact Given.pure (hc _ rfl rfl)
      | some n => exact Given.ite (fun _ => Given.err) fun _ => Given.pure (hc _ rfl rfl)
    | _ => exact Given.bind Given.any fun _ _ => Given.pure (hc _ rfl rfl)
  · rintro ⟨st', l⟩ ⟨h1, h2, h3⟩
    refine Given.ite (fun _ => Given.err) fun _ => Given.pure ⟨?_, h2⟩
    by_cases hcode : h.kind = .Code
    · left
      refine ⟨.Code, ?_, Nat.le_refl _⟩
      show List.getLast? (if h.kind ≠ SectionKind.Custom then _ else _) = _
      rw [if_pos (by simp [hcode])]
      simp [hcode]
    · rcases h3 hcode with ⟨⟨k, hk1, hk2⟩, hk⟩ | ⟨_, hk⟩ | hn
      · left
        refine ⟨k, ?_, hk2⟩
        show List.getLast? (if h.kind ≠ SectionKind.Custom then _ else _) = _
        rw [if_neg (by simp [hk])]
        exact h1 ▸ hk1
      · left
        refine ⟨h.kind, ?_, Nat.le_of_lt hk⟩
        show List.getLast? (if h.kind ≠ SectionKind.Custom then _ else _) = _
        rw [if_pos (fun hh => by rw [hh] at hk; exact absurd hk (by decide))]
        simp
      · exact .inr hn

theorem loop_given' : ∀ n st, Steady T st → Given (R := R) T (sectionLoop n st) (Steady T)
  | 0, _, _ => fun _ _ h => by cases h
  | n + 1, st, hs => by
    refine Given.bind Given.any fun h _ => ?_
    cases h with
    | none => exact Given.pure hs
    | some h => exact Given.bind (section_given hs) fun st' h' => loop_given' n st' h'

theorem module_given : Given (R := R) T decodeModule (fun m => Grown T m.funcs) := by
  intro r
  have h : Given (R := R) T
      (parsePreamble.mapErr DecodeModuleError.ParsePreamble >>= fun _ =>
        sectionLoop (Read.weight r + 1) ⟨Module.default, false, false⟩ >>= finalChecks) (fun m => Grown T m.funcs) := by
    refine Given.bind Given.any fun _ _ => Given.bind (loop_given' _ _ ⟨.inr ?_, ?_⟩) fun st hst => ?_
    · intro f hf; cases hf
    · intro f hf; cases hf
    · intro r m hm
      rw [final_funcs st r m hm]
      exact hst.2
  exact h r

end Wadec.Bounded
