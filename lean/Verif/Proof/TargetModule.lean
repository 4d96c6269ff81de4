import Verif.Proof.TargetSame
import Verif.Proof.PaysModule
import Verif.Proof.StepsSameAll

/-! Decoding a module on a target is decoding it, unless there is no room for a vector that was asked for, or for the locals of a
function (C77). -/

namespace Wadec.Bounded

variable {R : Type} {ε ε' α β σ : Type} [Read R] [Ledger R]

/-- The target has no room for so many locals. -/
def Short (T : Target) : Prop := ∃ n, n < 2 ^ 32 ∧ T.grows n = false

/-- `c` does what `d` does, or panics for want of room; if it is room for locals, then `Q` holds of what `d` delivers. -/
structure TiedQ (Q : Target → α → Prop) (c : Dec R ε α) (d : Wadec.Dec R ε α) : Prop where
  keeps : ∀ r m, Ledger.seen r m → Ledger.seen (d r).2 m
  same : ∀ r T, (c r T = d r ∧ (Holds T r → Holds T (d r).2)) ∨ ((c r T).1 = .panic ∧ (Lacks T (d r).2 ∨ (Short T ∧ ∀ a, (d r).1 = .ok a → Q T a)))

namespace TiedQ

theorem of {Q : Target → α → Prop} {c : Dec R ε α} {d : Wadec.Dec R ε α} (h : Tied c d) : TiedQ Q c d where
  keeps := h.keeps
  same := fun r T => (h.same r T).imp id fun ⟨h1, h2⟩ => ⟨h1, .inl h2⟩

theorem bind {Q : Target → α → Prop} {Q' : Target → β → Prop} {c : Dec R ε α} {d : Wadec.Dec R ε α} {f : α → Dec R ε β}
    {g : α → Wadec.Dec R ε β} {P : α → Prop} (h : TiedQ Q c d) (hp : ∀ r a, (d r).1 = .ok a → P a)
    (hf : ∀ a, P a → TiedQ Q' (f a) (g a)) (hq : ∀ T a r b, P a → Q T a → (g a r).1 = .ok b → Q' T b) :
    TiedQ Q' (c >>= f) (d >>= g) where
  keeps := fun r m hm => by
    show Ledger.seen (Wadec.Dec.bind d g r).2 m
    have := h.keeps r m hm
    have h3 := hp r
    unfold Wadec.Dec.bind
    generalize d r = x at this h3 ⊢
    obtain ⟨res, r'⟩ := x
    cases res <;> first | exact this | exact (hf _ (h3 _ rfl)).keeps _ _ this
  same := fun r T => by
    show (Dec.bind c f r T = Wadec.Dec.bind d g r ∧ (Holds T r → Holds T (Wadec.Dec.bind d g r).2)) ∨ ((Dec.bind c f r T).1 = .panic ∧ (Lacks T (Wadec.Dec.bind d g r).2 ∨
      (Short T ∧ ∀ a, (Wadec.Dec.bind d g r).1 = .ok a → Q' T a)))
    have := h.same r T
    have h3 := hp r
    unfold Dec.bind Wadec.Dec.bind
    generalize c r T = x at this ⊢
    generalize d r = y at this h3 ⊢
    rcases this with ⟨rfl, h0⟩ | ⟨h1, h2⟩
    · obtain ⟨res, r'⟩ := x
      cases res <;> first
        | exact .inl ⟨rfl, h0⟩
        | exact ((hf _ (h3 _ rfl)).same _ _).imp (fun ⟨h3, h4⟩ => ⟨h3, fun h => h4 (h0 h)⟩) id
    · obtain ⟨res, r'⟩ := x
      obtain ⟨res', r''⟩ := y
      cases h1
      refine .inr ⟨rfl, ?_⟩
      rcases h2 with h2 | ⟨h2, h4⟩
      · left
        cases res' <;> first | exact h2 | exact Lacks.keeps (hf _ (h3 _ rfl)).keeps h2
      · refine .inr ⟨h2, fun b hb => ?_⟩
        cases res' with
        | ok a => exact hq T a r'' b (h3 a rfl) (h4 a rfl) hb
        | _ => cases hb

theorem after {Q : Target → β → Prop} {c : Dec R ε α} {d : Wadec.Dec R ε α} {f : α → Dec R ε β} {g : α → Wadec.Dec R ε β}
    (h : Tied c d) (hf : ∀ a, TiedQ Q (f a) (g a)) : TiedQ Q (c >>= f) (d >>= g) :=
  bind (Q := fun _ _ => False) (P := fun _ => True) (of h) (fun _ _ _ => trivial) (fun a _ => hf a)
    (fun _ _ _ _ _ h _ => h.elim)

theorem ite {Q : Target → α → Prop} {p : Prop} [Decidable p] {a b : Dec R ε α} {a' b' : Wadec.Dec R ε α} (ha : p → TiedQ Q a a')
    (hb : ¬ p → TiedQ Q b b') : TiedQ Q (if p then a else b) (if p then a' else b') := by
  split <;> rename_i h
  · exact ha h
  · exact hb h

theorem take {Q : Target → α → Prop} {n : Nat} {c : Dec (Take R) ε α} {d : Wadec.Dec (Take R) ε α} (h : TiedQ Q c d) :
    TiedQ (fun T x => Q T x.1) (Dec.withTake n c) (Wadec.Dec.withTake n d) where
  keeps := fun r m hm => by
    have := h.keeps ⟨n, r⟩ m hm
    unfold Wadec.Dec.withTake
    generalize d ⟨n, r⟩ = x at this ⊢
    obtain ⟨res, r'⟩ := x
    cases res <;> exact this
  same := fun r T => by
    have := h.same ⟨n, r⟩ T
    unfold Dec.withTake Wadec.Dec.withTake
    generalize c ⟨n, r⟩ T = x at this ⊢
    generalize d ⟨n, r⟩ = y at this ⊢
    rcases this with ⟨rfl, h0⟩ | ⟨h1, h2⟩
    · obtain ⟨res, r'⟩ := x
      cases res <;> exact .inl ⟨rfl, h0⟩
    · obtain ⟨res, r'⟩ := x
      obtain ⟨res', r''⟩ := y
      cases h1
      refine .inr ⟨rfl, ?_⟩
      rcases h2 with h2 | ⟨h2, h4⟩
      · left
        cases res' <;> exact h2
      · refine .inr ⟨h2, fun b hb => ?_⟩
        cases res' with
        | ok a => cases hb; exact h4 a rfl
        | _ => cases hb

end TiedQ

/-! ### The locals -/

omit [Read R] [Ledger R] in
theorem fill_keeps : ∀ codes i funcs enc (r : R) fs e r' (j : Nat), Wadec.fillFuncs codes i funcs enc r = (.ok (fs, e), r') → j < i →
    fs[j]? = funcs[j]?
  | [], _, funcs, enc, r, fs, e, r', j, h, _ => by
    cases h; rfl
  | code :: codes, i, funcs, enc, r, fs, e, r', j, h, hj => by
    unfold Wadec.fillFuncs at h
    cases hf : funcs[i]? with
    | none => rw [hf] at h; cases h
    | some f =>
      rw [hf] at h
      rw [fill_keeps codes _ _ _ r fs e r' j h (by omega)]
      exact List.getElem?_set_ne (by omega)

/-- The target has no room for the locals of one of these functions. -/
def Crowded (T : Target) (fs : List Func) : Prop := ∃ f ∈ fs, ∃ n, n ≤ f.locals.length ∧ T.grows n = false

theorem tied_fill : ∀ (codes : List Code) (i : Nat) (funcs : List Func) (enc : Bool),
    (∀ c ∈ codes, Counted.counts c.locals ≤ 4294967295) →
    TiedQ (R := R) (fun T x => Crowded T x.1) (fillFuncs codes i funcs enc) (Wadec.fillFuncs codes i funcs enc)
  | [], _, _, _, _ => TiedQ.of Tied.pure
  | code :: codes, i, funcs, enc, hc => by
    unfold fillFuncs Wadec.fillFuncs
    cases hf : funcs[i]? with
    | none => exact TiedQ.of Tied.panic
    | some f =>
      dsimp only
      have ih := tied_fill codes (i + 1) (funcs.set i { f with locals := f.locals ++ expandLocals code.locals, body := code.expr })
        (if code.encountered_data_index then true else enc) (fun c h => hc c (List.mem_cons_of_mem _ h))
      refine ⟨ih.keeps, fun r T => ?_⟩
      cases hg : T.grows (expandLocals code.locals).length with
      | true =>
        have := ih.same r T
        show (Dec.bind _ _ r T = _ ∧ _) ∨ ((Dec.bind _ _ r T).1 = _ ∧ _)
        simp only [Dec.bind, Dec.grow, hg, if_true]
        exact this
      | false =>
        right
        refine ⟨?_, .inr ⟨⟨_, ?_, hg⟩, fun a ha => ?_⟩⟩
        · show (Dec.bind _ _ r T).1 = _
          simp only [Dec.bind, Dec.grow, hg]
          rfl
        · have h1 := hc code (by simp)
          have h2 : (expandLocals code.locals).length = Counted.counts code.locals := by
            simp only [expandLocals, List.length_flatMap, List.length_replicate, Counted.counts]
          omega
        · generalize hd : Wadec.fillFuncs codes (i + 1) _ _ r = x at ha
          obtain ⟨res, r'⟩ := x
          cases ha
          obtain ⟨fs, e⟩ := a
          have h1 := fill_keeps _ _ _ _ _ _ _ _ i hd (by omega)
          have h2 : i < funcs.length := by
            rcases Nat.lt_or_ge i funcs.length with h | h
            · exact h
            · rw [List.getElem?_eq_none h] at hf; cases hf
          rw [List.getElem?_set_self h2] at h1
          exact ⟨_, List.mem_of_getElem? h1, _, by simp, hg⟩

/-! ### Sections -/

omit [Ledger R] in
theorem code_given (r : R) (c : Code) (h : (Wadec.parseCode r).1 = .ok c) : Counted.counts c.locals ≤ 4294967295 := by
  have h1 := Counted.same_parseCode (R := R) r
  rw [← h1] at h
  generalize hd : Counted.parseCode r = x at h
  obtain ⟨⟨res, r'⟩, n⟩ := x
  cases h
  exact Counted.gives_code r c r' n hd

omit [Read R] [Ledger R] in
theorem loop_given {P : α → Prop} {f : σ → Wadec.Dec R ε (α × σ)} (hf : ∀ st r x, (f st r).1 = .ok x → P x.1) :
    ∀ n i st items (r : R) x, (∀ y ∈ items, P y) → (Wadec.decodeListLoop f n i st items r).1 = .ok x → ∀ y ∈ x.1, P y
  | 0, _, _, items, r, x, hi, h => by cases h; exact hi
  | n + 1, i, st, items, r, x, hi, h => by
    change (Wadec.Dec.bind (Wadec.Dec.mapErr _ (f st)) _ r).1 = _ at h
    unfold Wadec.Dec.bind Wadec.Dec.mapErr at h
    have h1 := hf st r
    generalize f st r = y at h h1
    obtain ⟨res, r'⟩ := y
    cases res with
    | ok v =>
      obtain ⟨v, st'⟩ := v
      refine loop_given hf n _ _ _ r' x ?_ h
      intro y hy
      rcases List.mem_append.1 hy with hy | hy
      · exact hi y hy
      · rw [List.mem_singleton.1 hy]; exact h1 _ rfl
    | _ => cases h

omit [Ledger R] in
theorem list_given {P : α → Prop} {d : Wadec.Dec R ε α} (hd : ∀ r a, (d r).1 = .ok a → P a) (r : R) (xs : List α)
    (h : (Wadec.decodeList d r).1 = .ok xs) : ∀ y ∈ xs, P y := by
  change (Wadec.Dec.bind (Wadec.Dec.bind (Wadec.Dec.mapErr _ _) fun _ => Wadec.Dec.bind (Wadec.Dec.reserve _) _) _ r).1 = _ at h
  unfold Wadec.Dec.bind Wadec.Dec.mapErr at h
  generalize Wadec.decodeU32 r = x at h
  obtain ⟨res, r1⟩ := x
  cases res with
  | ok n =>
    simp only [Wadec.Dec.reserve] at h
    generalize hl : Wadec.decodeListLoop _ n.toNat 0 () [] (Read.reserve n.toNat r1) = z at h
    obtain ⟨res, r2⟩ := z
    cases res with
    | ok v =>
      obtain ⟨v, u⟩ := v
      cases h
      refine loop_given (P := P) ?_ n.toNat 0 () [] _ (v, u) (fun _ hy => by cases hy) (by rw [hl])
      intro st r x hx
      change (Wadec.Dec.bind d _ r).1 = _ at hx
      unfold Wadec.Dec.bind at hx
      have := hd r
      generalize d r = y at hx this
      obtain ⟨res, r'⟩ := y
      cases res with
      | ok a => cases hx; exact this a rfl
      | _ => cases hx
    | _ => cases h
  | _ => cases h

theorem tied_body (kind : SectionKind) (st : LoopState) :
    TiedQ (R := R) (fun T st => kind = .Code ∧ Crowded T st.module.funcs) (decodeSectionBody kind st) (Wadec.decodeSectionBody kind st) := by
  cases kind with
  | Code =>
    refine TiedQ.bind (P := fun codes => ∀ c ∈ codes, Counted.counts c.locals ≤ 4294967295) (Q := fun _ _ => False)
      (TiedQ.of (Tied.mapErr Tie.tied)) ?_ ?_ (fun _ _ _ _ _ h _ => h.elim)
    · intro r codes h
      refine list_given code_given r codes ?_
      change (Wadec.Dec.mapErr _ (Wadec.Dec.mapErr _ (Wadec.decodeList _)) r).1 = _ at h
      unfold Wadec.Dec.mapErr at h
      generalize Wadec.decodeList _ r = x at h ⊢
      obtain ⟨res, r'⟩ := x
      cases res <;> cases h <;> rfl
    · intro codes hc
      refine TiedQ.ite (fun _ => TiedQ.of Tied.err) fun _ => ?_
      refine TiedQ.bind (P := fun _ => True) (tied_fill codes 0 _ _ hc) (fun _ _ _ => trivial) (fun ⟨_, _⟩ _ => TiedQ.of Tied.pure) ?_
      rintro T ⟨fs, e⟩ r b _ h hb
      cases hb
      exact ⟨rfl, h⟩
  | Data =>
    refine TiedQ.of (Tied.bind (Tied.mapErr Tie.tied) fun datas => ?_)
    cases h : st.module.data_count with
    | none => exact Tied.pure
    | some n => exact Tied.ite (fun _ => Tied.err) fun _ => Tied.pure
  | _ => exact TiedQ.of (Tied.bind (Tied.mapErr Tie.tied) fun _ => Tied.pure)

/-- No later section changes the functions. -/
def Late (st : LoopState) : Prop := ∃ k, st.module.parsed_section_kinds.getLast? = some k ∧ SectionKind.Code.rank ≤ k.rank

theorem tied_section (h : SectionHeader) (st : LoopState) :
    TiedQ (R := R) (fun T st => Late st ∧ Crowded T st.module.funcs) (decodeSection h st) (Wadec.decodeSection h st) := by
  refine TiedQ.after Tie.tied fun _ => TiedQ.bind (P := fun _ => True) (TiedQ.take (tied_body h.kind st)) (fun _ _ _ => trivial)
    (fun ⟨_, _⟩ _ => TiedQ.ite (fun _ => TiedQ.of Tied.err) fun _ => TiedQ.of Tied.pure) ?_
  rintro T ⟨st', l⟩ r b _ ⟨hk, h1⟩ hb
  dsimp only at hb h1
  by_cases hl : l = 0
  · rw [if_neg (by simp [hl])] at hb
    cases hb
    refine ⟨⟨.Code, ?_, Nat.le_refl _⟩, h1⟩
    simp [hk]
  · rw [if_pos (by simp [hl])] at hb
    cases hb

/-- What `d` delivers has `P`. -/
def Yields (d : Wadec.Dec R ε α) (P : α → Prop) : Prop := ∀ r a, (d r).1 = .ok a → P a

namespace Yields

omit [Read R] [Ledger R]

theorem pure {P : α → Prop} {a : α} (h : P a) : Yields (R := R) (ε := ε) (Pure.pure a : Wadec.Dec R ε α) P := fun _ _ e => by
  cases e; exact h

theorem err {P : α → Prop} {e : ε} : Yields (R := R) (Wadec.Dec.err e : Wadec.Dec R ε α) P := fun _ _ e => by cases e

theorem bind {P : α → Prop} {Q : β → Prop} {d : Wadec.Dec R ε α} {g : α → Wadec.Dec R ε β} (h : Yields d P)
    (hg : ∀ a, P a → Yields (g a) Q) : Yields (d >>= g) Q := by
  intro r b hb
  change (Wadec.Dec.bind d g r).1 = _ at hb
  unfold Wadec.Dec.bind at hb
  have h3 := h r
  generalize d r = x at hb h3
  obtain ⟨res, r'⟩ := x
  cases res with
  | ok a => exact hg a (h3 a rfl) r' b hb
  | _ => cases hb

theorem any {d : Wadec.Dec R ε α} : Yields d (fun _ => True) := fun _ _ _ => trivial

theorem ite {P : α → Prop} {p : Prop} [Decidable p] {a b : Wadec.Dec R ε α} (ha : p → Yields a P)
    (hb : ¬ p → Yields b P) : Yields (if p then a else b) P := by
  split <;> rename_i h
  · exact ha h
  · exact hb h

theorem take [Read R] {P : α → Prop} {n : Nat} {d : Wadec.Dec (Take R) ε α} (h : Yields d P) :
    Yields (Wadec.Dec.withTake n d) (fun x => P x.1) := by
  intro r b hb
  unfold Wadec.Dec.withTake at hb
  have h3 := h ⟨n, r⟩
  generalize d ⟨n, r⟩ = x at hb h3
  obtain ⟨res, r'⟩ := x
  cases res with
  | ok a => cases hb; exact h3 a rfl
  | _ => cases hb

end Yields

omit [Read R] [Ledger R] in
theorem rank_inj {a b : SectionKind} (h : a.rank = b.rank) : a = b := by
  revert h; cases a <;> cases b <;> first | (intro _; rfl) | (intro h; cases h)

omit [Read R] [Ledger R] in
theorem validate_late {st : LoopState} {k : SectionKind} (hl : Late st) :
    Yields (R := R) (Wadec.Module.validateSectionKindExpected st.module k) (fun _ => k = .Custom ∨ SectionKind.Code.rank < k.rank) := by
  obtain ⟨p, h1, h2⟩ := hl
  unfold Wadec.Module.validateSectionKindExpected
  rw [h1]
  refine Yields.ite (fun h => Yields.pure (.inl h)) fun _ => Yields.ite (fun _ => Yields.err) fun h3 =>
    Yields.ite (fun _ => Yields.err) fun h4 => Yields.pure (.inr ?_)
  have : k.rank ≠ p.rank := fun h => h4 (rank_inj h)
  omega

omit [Ledger R] in
theorem body_late {st : LoopState} {k : SectionKind} (hk : k = .Custom ∨ SectionKind.Code.rank < k.rank) :
    Yields (R := R) (Wadec.decodeSectionBody k st) (fun st' => st'.module.funcs = st.module.funcs ∧
      st'.module.parsed_section_kinds = st.module.parsed_section_kinds) := by
  cases k with
  | Custom => exact Yields.bind Yields.any fun _ _ => Yields.pure ⟨rfl, rfl⟩
  | Data =>
    refine Yields.bind Yields.any fun datas _ => ?_
    cases h : st.module.data_count with
    | none => exact Yields.pure ⟨rfl, rfl⟩
    | some n => exact Yields.ite (fun _ => Yields.err) fun _ => Yields.pure ⟨rfl, rfl⟩
  | _ => exact absurd hk (by decide)

omit [Ledger R] in
/-- After the code, no section changes the functions. -/
theorem section_late {h : SectionHeader} {st : LoopState} (hl : Late st) :
    Yields (R := R) (Wadec.decodeSection h st) (fun st' => Late st' ∧ st'.module.funcs = st.module.funcs) := by
  refine Yields.bind (validate_late hl) fun _ hk => Yields.bind (Yields.take (body_late hk)) fun ⟨st', l⟩ hst => ?_
  refine Yields.ite (fun _ => Yields.err) fun _ => Yields.pure ⟨?_, hst.1⟩
  obtain ⟨k, h1, h2⟩ := hl
  by_cases hc : h.kind = .Custom
  · refine ⟨k, ?_, h2⟩
    show List.getLast? (if h.kind ≠ SectionKind.Custom then _ else _) = _
    rw [if_neg (by simp [hc]), hst.2, h1]
  · refine ⟨h.kind, ?_, Nat.le_of_lt (hk.resolve_left hc)⟩
    show List.getLast? (if h.kind ≠ SectionKind.Custom then _ else _) = _
    rw [if_pos hc]
    simp

omit [Ledger R] in
theorem loop_late : ∀ n st, Late st →
    Yields (R := R) (Wadec.sectionLoop n st) (fun st' => st'.module.funcs = st.module.funcs)
  | 0, _, _ => fun _ _ h => by cases h
  | n + 1, st, hl => by
    refine Yields.bind Yields.any fun h _ => ?_
    cases h with
    | none => exact Yields.pure rfl
    | some h => exact Yields.bind (section_late hl) fun st' h' r a ha => (loop_late n st' h'.1 r a ha).trans h'.2

theorem tied_loop : ∀ n st,
    TiedQ (R := R) (fun T st => Crowded T st.module.funcs) (sectionLoop n st) (Wadec.sectionLoop n st)
  | 0, _ => TiedQ.of Tied.fuel
  | n + 1, st => by
    refine TiedQ.after (Tied.mapErr Tie.tied) fun h => ?_
    cases h with
    | none => exact TiedQ.of Tied.pure
    | some h =>
      refine TiedQ.bind (P := fun _ => True) (tied_section h st) (fun _ _ _ => trivial) (fun st _ => tied_loop n st) ?_
      intro T st r b _ hq hb
      rw [loop_late n st hq.1 r b hb]
      exact hq.2

omit [Read R] [Ledger R] in
theorem final_funcs (st : LoopState) : Yields (R := R) (Wadec.finalChecks st) (fun m => m.funcs = st.module.funcs) := by
  intro r m h
  unfold Wadec.finalChecks at h
  repeat' (first | (split at h) | (cases h; first | rfl | done))

theorem tied_module : TiedQ (R := R) (fun T m => Crowded T m.funcs) decodeModule Wadec.decodeModule := by
  have h : ∀ n, TiedQ (R := R) (fun T m => Crowded T m.funcs)
      (parsePreamble.mapErr DecodeModuleError.ParsePreamble >>= fun _ => sectionLoop n ⟨Module.default, false, false⟩ >>= finalChecks)
      (Wadec.parsePreamble.mapErr DecodeModuleError.ParsePreamble >>= fun _ =>
        Wadec.sectionLoop n ⟨Module.default, false, false⟩ >>= Wadec.finalChecks) := fun n => by
    refine TiedQ.after (Tied.mapErr Tie.tied) fun _ => TiedQ.bind (P := fun _ => True) (tied_loop _ _) (fun _ _ _ => trivial)
      (fun _ _ => TiedQ.of Tie.tied) ?_
    intro T st r m _ hq hm
    rw [final_funcs st r m hm]
    exact hq
  exact ⟨fun r => (h (Read.weight r + 1)).keeps r, fun r => (h (Read.weight r + 1)).same r⟩

end Wadec.Bounded
