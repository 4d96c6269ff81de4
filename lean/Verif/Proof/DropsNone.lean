import Verif.Proof.Drops
import Verif.Proof.Sane

/-! Decoding that succeeds drops no instructions (C84). -/

namespace Wadec

open LawfulRead Spec

section
variable {R : Type} [Read R] {ε ε' α β : Type} {q : Nat}

/-- `y` succeeds where `x` does, with the same result. -/
abbrev Likewise (x y : Dec R ε α) : Prop := Fits (fun _ => True) x y

theorem Likewise.refl {x : Dec R ε α} : Likewise x x := Fits.same fun _ _ _ _ => trivial

theorem Likewise.bind {x y : Dec R ε α} {f g : α → Dec R ε β} (h : Likewise x y) (hf : ∀ v, Likewise (f v) (g v)) :
    Likewise (x >>= f) (y >>= g) := Fits.bind h (fun v _ => hf v) fun _ _ _ _ _ _ => trivial

theorem Likewise.last {x y : Dec R ε α} {f : α → Dec R ε β} (h : Likewise x y) : Likewise (x >>= f) (y >>= f) :=
  Likewise.bind h fun _ => Likewise.refl

theorem Likewise.next {x : Dec R ε α} {f g : α → Dec R ε β} (hf : ∀ v, Likewise (f v) (g v)) : Likewise (x >>= f) (x >>= g) :=
  Likewise.bind Likewise.refl hf

theorem Likewise.holding {es : List Expr} {x y : Dec R ε α} (h : Likewise x y) : Likewise x (holding q es y) := by
  intro r v r'
  rw [← h r v r']
  simp only [Wadec.holding]
  generalize y r = o
  obtain ⟨res, r1⟩ := o
  cases res with
  | ok w => exact Iff.rfl
  | fuel => exact Iff.rfl
  | err e => cases eachWithin (dropVecWithin q) es <;> simp
  | panic => cases eachWithin (dropVecWithin q) es <;> simp

theorem Likewise.holds {es : List Expr} {x : Dec R ε α} : Likewise x (Wadec.holding q es x) := Likewise.holding Likewise.refl

theorem Likewise.seq {p p' : Dec R ParseError ParseResult} (h : Likewise p p') :
    ∀ n b acc, Likewise (parseSeq p n b acc) (parseSeqDropping q p' n b acc)
  | 0, _, _ => Likewise.refl
  | n + 1, b, acc => by
    rw [parseSeqDropping, parseSeq]
    refine Likewise.bind (Likewise.holding h) fun v => ?_
    cases v with
    | Instruction i => exact Likewise.seq h n b _
    | End => exact Likewise.refl
    | Else => exact Fits.ite (fun _ => Likewise.refl) fun _ => Likewise.holds

theorem Likewise.loop {d : Nat} {p p' : Dec R ParseError ParseResult} (h : Likewise p p') :
    ∀ n acc c, Likewise (decodeExprLoopWithin d p n acc c) (decodeExprLoopDropping d q p' n acc c)
  | 0, _, _ => Likewise.refl
  | n + 1, acc, c => by
    rw [decodeExprLoopDropping, decodeExprLoopWithin]
    refine Likewise.bind (Likewise.holding (Fits.mapErr h)) fun v => ?_
    cases v with
    | Instruction i =>
      simp only
      cases containsDataIdxWithin d i with
      | none => exact Likewise.refl
      | some b => exact Likewise.loop h n _ _
    | End => exact Likewise.refl
    | Else => exact Likewise.holds

theorem Likewise.listLoop {es : α → List Expr} {f f' : Dec R ε α} (h : Likewise f f') : ∀ n i items,
    Likewise (decodeListLoop (fun (_ : Unit) => do let x ← f; pure (x, ())) n i () items >>= fun x => pure x.1)
      (decodeListLoopDropping q es f' n i items)
  | 0, _, _ => Likewise.refl
  | n + 1, i, items => by
    intro r w r'
    rw [decodeListLoopDropping, decodeListLoop, bind_ok_iff, bind_ok_iff]
    simp only [bind_ok_iff]
    constructor
    · rintro ⟨v, r1, h1, h2⟩
      have h1 := (Likewise.holding (Fits.mapErr h) _ _ _).1 h1
      obtain ⟨h2, _⟩ := (Likewise.listLoop h n (i + 1) (items ++ [v]) _ _ _).1 h2
      obtain ⟨x, r2, h3, h4⟩ := bind_ok_iff.1 h2
      refine ⟨⟨x, r2, ⟨(v, ()), r1, mapErr_ok_iff.2 (bind_ok_iff.2 ⟨v, r1, mapErr_ok_iff.1 h1.1, rfl⟩), h3⟩, h4⟩, trivial⟩
    · rintro ⟨⟨x, r2, ⟨⟨v, u⟩, r1, h1, h3⟩, h4⟩, _⟩
      obtain ⟨v', r1', h1', h5⟩ := bind_ok_iff.1 (mapErr_ok_iff.1 h1)
      obtain ⟨h5, rfl⟩ := pure_ok_iff.1 h5
      cases h5
      exact ⟨_, _, (Likewise.holding (Fits.mapErr h) _ _ _).2 ⟨mapErr_ok_iff.2 h1', trivial⟩,
        (Likewise.listLoop h n (i + 1) (items ++ [v]) _ _ _).2 ⟨bind_ok_iff.2 ⟨_, _, h3, h4⟩, trivial⟩⟩

theorem Likewise.listDropping {es : α → List Expr} {f f' : Dec R ε α} (h : Likewise f f') :
    Likewise (decodeList f) (decodeListDropping q es f') := by
  have e : decodeList f = (do
      let len ← decodeU32.mapErr DecodeListError.DecodeLength
      Dec.reserve len.toNat
      (decodeListLoop (fun (_ : Unit) => do let x ← f; pure (x, ())) len.toNat 0 () [] >>= fun x => pure x.1) : Dec R _ _) := by
    funext r
    simp only [decodeList, decodeListS, Bind.bind, Dec.bind]
    generalize decodeU32.mapErr DecodeListError.DecodeLength r = o
    obtain ⟨res, r1⟩ := o
    cases res with
    | ok len => rfl
    | _ => rfl
  rw [e]
  exact Likewise.next fun _ => Likewise.next fun _ => Likewise.listLoop h _ _ _

theorem parse_likewise : ∀ n d q, Likewise (R := R) (parseWithin d n) (parseDropping d q n)
  | _, 0, _ => by rw [parseDropping, parseWithin]; exact Likewise.refl
  | 0, d + 1, _ => by rw [parseDropping, parseWithin]; exact Likewise.refl
  | n + 1, d + 1, q => by
    have ih := parse_likewise n d (q - 1)
    rw [parseDropping, parseWithin]
    refine Likewise.next fun v => ?_
    match v with
    | [] => exact Likewise.refl
    | _ :: _ :: _ => exact Likewise.refl
    | [op] =>
      refine Fits.ite (fun _ => Likewise.refl) fun _ => Fits.ite (fun _ => Likewise.refl) fun _ => Fits.ite (fun _ => ?_) fun _ =>
        Fits.ite (fun _ => ?_) fun _ => Likewise.refl
      · refine Likewise.next fun bt => Likewise.bind (Likewise.seq ih _ _ _) ?_
        rintro ⟨in1, parsed⟩
        refine Fits.ite (fun _ => Likewise.refl) fun _ => Fits.ite (fun _ => Likewise.refl) fun _ => Fits.ite (fun _ => ?_) fun _ => Likewise.refl
        cases parsed with
        | Else => exact Likewise.last (Likewise.holding (Likewise.seq ih _ _ _))
        | _ => exact Likewise.refl
      · exact Likewise.next fun bt => Likewise.next fun c => Likewise.last (Likewise.seq ih _ _ _)

variable {d : Nat}

theorem expr_likewise : Likewise (R := R) (decodeExprWithin d) (decodeExprDropping d q) :=
  fun r => (Likewise.loop (parse_likewise _ d q) _ _ _) r

theorem expr'_likewise : Likewise (R := R) (decodeExprWithin' d) (decodeExprDropping' d q) := Likewise.last expr_likewise

theorem code_likewise : Likewise (R := R) (parseCodeWithin d) (parseCodeDropping d q) := by
  refine Likewise.next fun _ => Likewise.bind (y := Dec.withTake _ (parseCodeBodyDropping d q)) (fun r v r' => ?_) ?_
  · rw [withTake_ok_iff, withTake_ok_iff]
    exact (Likewise.next fun _ => Likewise.last (Fits.mapErr expr_likewise) :
      Likewise (R := Take R) (parseCodeBodyWithin d) (parseCodeBodyDropping d q)) _ _ _
  · rintro ⟨⟨_, e, _⟩, _⟩
    exact Fits.ite (fun _ => Likewise.holds) fun _ => Likewise.refl

theorem data_likewise : Likewise (R := R) (parseDataWithin d) (parseDataDropping d q) := by
  refine Likewise.next fun _ => Fits.ite (fun _ => ?_) fun _ => Fits.ite (fun _ => Likewise.refl) fun _ => Fits.ite (fun _ => ?_) fun _ => Likewise.refl
  · exact Likewise.bind (Fits.mapErr expr'_likewise) fun e => Likewise.last Likewise.holds
  · exact Likewise.next fun _ => Likewise.bind (Fits.mapErr expr'_likewise) fun e => Likewise.last Likewise.holds

theorem elemExprs_likewise : Likewise (R := R) (elemExprsWithin d) (elemExprsDropping d q) :=
  Fits.mapErr (Likewise.listDropping expr'_likewise)

theorem elem_likewise : Likewise (R := R) (parseElemWithin d) (parseElemDropping d q) := by
  refine Likewise.next fun _ => Fits.ite (fun _ => ?_) fun _ => Fits.ite (fun _ => Likewise.refl) fun _ => Fits.ite (fun _ => ?_) fun _ =>
    Fits.ite (fun _ => Likewise.refl) fun _ => Fits.ite (fun _ => ?_) fun _ => Fits.ite (fun _ => ?_) fun _ => Fits.ite (fun _ => ?_) fun _ =>
    Fits.ite (fun _ => ?_) fun _ => Likewise.refl
  · exact Likewise.bind (Fits.mapErr expr'_likewise) fun e => Likewise.last Likewise.holds
  · exact Likewise.next fun _ => Likewise.bind (Fits.mapErr expr'_likewise) fun e => Likewise.bind Likewise.holds fun _ => Likewise.last Likewise.holds
  · exact Likewise.bind (Fits.mapErr expr'_likewise) fun e => Likewise.last (Likewise.holding elemExprs_likewise)
  · exact Likewise.next fun _ => Likewise.last elemExprs_likewise
  · exact Likewise.next fun _ => Likewise.bind (Fits.mapErr expr'_likewise) fun e => Likewise.bind Likewise.holds fun _ =>
      Likewise.last (Likewise.holding elemExprs_likewise)
  · exact Likewise.next fun _ => Likewise.last elemExprs_likewise

theorem global_likewise : Likewise (R := R) (parseGlobalWithin d) (parseGlobalDropping d q) :=
  Likewise.next fun _ => Likewise.last (Fits.mapErr expr'_likewise)

theorem table_likewise : Likewise (R := R) (decodeTableWithin d) (decodeTableDropping d q) :=
  Likewise.next fun _ => Fits.ite (fun _ => Likewise.next fun _ => Fits.ite (fun _ => Likewise.refl) fun _ =>
    Likewise.next fun _ => Likewise.last (Fits.mapErr expr'_likewise)) fun _ => Likewise.refl

/-! ### Assignments -/

theorem dropping_none {es : List Expr} (h : ∀ e ∈ es, e = []) : (dropping q es : Dec R ε Unit) = pure () :=
  dropping_eq fun e he => .inr (h e he)

theorem fill_likewise : ∀ (codes : List Code) (i : Nat) (fs : List Func) (b : Bool),
    (∀ j f, i ≤ j → fs[j]? = some f → f.body = []) → Likewise (R := R) (fillFuncs codes i fs b) (fillFuncsDropping q codes i fs b)
  | [], _, _, _, _ => Likewise.refl
  | c :: codes, i, fs, b, hf => by
    rw [fillFuncsDropping, fillFuncs]
    cases h : fs[i]? with
    | none => exact Likewise.holds
    | some f =>
      simp only
      rw [dropping_none fun e he => by cases List.mem_singleton.1 he; exact hf i f (Nat.le_refl _) h]
      refine fill_likewise codes (i + 1) _ _ fun j g hj hg => ?_
      rw [List.getElem?_set_ne (by omega)] at hg
      exact hf j g (by omega) hg

/-- Nothing is at the places the contents of a section of this kind are put. -/
structure Vacant (k : SectionKind) (m : Module) : Prop where
  tables : k = .Table → m.tables = []
  globals : k = .Global → m.globals = []
  elems : k = .Element → m.elems = []
  datas : k = .Data → m.datas = []
  bodies : k = .Code → ∀ f ∈ m.funcs, f.body = []

theorem sectionBody_likewise {k : SectionKind} {st : LoopState} (h : Vacant k st.module) :
    Likewise (R := R) (decodeSectionBodyWithin d k st) (decodeSectionBodyDropping d q k st) := by
  cases k with
  | Table =>
    refine Likewise.bind (Fits.mapErr (Fits.mapErr (Likewise.listDropping table_likewise))) fun ts => ?_
    rw [dropping_none (by simp [h.tables rfl])]
    exact Likewise.refl
  | Global =>
    refine Likewise.bind (Fits.mapErr (Fits.mapErr (Likewise.listDropping global_likewise))) fun ts => ?_
    rw [dropping_none (by simp [h.globals rfl])]
    exact Likewise.refl
  | Element =>
    refine Likewise.bind (Fits.mapErr (Fits.mapErr (Likewise.listDropping elem_likewise))) fun ts => ?_
    rw [dropping_none (by simp [h.elems rfl])]
    exact Likewise.refl
  | Code =>
    refine Likewise.bind (Fits.mapErr (Fits.mapErr (Likewise.listDropping code_likewise))) fun cs =>
      Fits.ite (fun _ => Likewise.holds) fun _ => Likewise.last (fill_likewise _ _ _ _ fun j f _ hf => ?_)
    exact h.bodies rfl f (List.mem_of_getElem? hf)
  | Data =>
    refine Likewise.bind (Fits.mapErr (Fits.mapErr (Likewise.listDropping data_likewise))) fun ts => ?_
    rw [dropping_none (by simp [h.datas rfl])]
    cases st.module.data_count with
    | none => exact Likewise.refl
    | some c => exact Fits.ite (fun _ => Likewise.holds) fun _ => Likewise.refl
  | _ => exact Likewise.refl

end

section
variable {R : Type} [LawfulRead R] {d q : Nat}

theorem vacant {pre : List (UInt32 × Section)} {s : Section} (ha : (nonCustom (pre.map Prod.snd ++ [s])).Nodup) :
    Vacant s.kind (stateOf pre).module := by
  have hn : ∀ x ∈ pre.map Prod.snd, s.kind ≠ .Custom → x.kind ≠ s.kind := fun x hx hc he => by
    have := ha
    simp only [nonCustom, List.map_append, List.filter_append, List.nodup_append] at this
    exact this.2.2 s.kind (List.mem_filter.2 ⟨List.mem_map.2 ⟨x, hx, he⟩, by simp [hc]⟩) s.kind
      (List.mem_filter.2 ⟨by simp, by simp [hc]⟩) rfl
  refine ⟨fun h => ?_, fun h => ?_, fun h => ?_, fun h => ?_, fun h f hf => ?_⟩
  · refine List.flatMap_eq_nil_iff.2 fun x hx => ?_
    have := hn x hx (by rw [h]; decide)
    rw [h] at this
    cases x <;> first | rfl | exact absurd rfl this
  · refine List.flatMap_eq_nil_iff.2 fun x hx => ?_
    have := hn x hx (by rw [h]; decide)
    rw [h] at this
    cases x <;> first | rfl | exact absurd rfl this
  · refine List.flatMap_eq_nil_iff.2 fun x hx => ?_
    have := hn x hx (by rw [h]; decide)
    rw [h] at this
    cases x <;> first | rfl | exact absurd rfl this
  · refine List.flatMap_eq_nil_iff.2 fun x hx => ?_
    have := hn x hx (by rw [h]; decide)
    rw [h] at this
    cases x <;> first | rfl | exact absurd rfl this
  · have hc : hasCode (pre.map Prod.snd) = false := by
      simp only [hasCode, List.any_eq_false, decide_eq_true_eq]
      intro x hx
      have := hn x hx (by rw [h]; decide)
      rwa [h] at this
    simp only [stateOf, hc, cond_false] at hf
    obtain ⟨x, _, rfl⟩ := List.mem_map.1 hf
    rfl

theorem section_likewise {h : SectionHeader} {pre : List (UInt32 × Section)} (hp : Acceptable (pre.map Prod.snd)) :
    Likewise (R := R) (decodeSectionWithin d h (stateOf pre)) (decodeSectionDropping d q h (stateOf pre)) := by
  unfold decodeSectionWithin decodeSectionDropping
  rcases validate_kind (R := R) h.kind (sorted_iff.2 hp.order) with ⟨ho, _⟩ | ⟨_, p, _, _, _, hv⟩
  · obtain ⟨s, hs⟩ := exists_kind h.kind
    have hvac : Vacant h.kind (stateOf pre).module := hs ▸ vacant ((sorted_iff.1 (ho s hs)).nodup (by decide))
    refine Likewise.bind Likewise.holds fun _ => Likewise.bind (Likewise.holding (fun r v r' => ?_)) ?_
    · rw [withTake_ok_iff, withTake_ok_iff]
      exact sectionBody_likewise hvac _ _ _
    · rintro ⟨st', l⟩
      exact Fits.ite (fun _ => Likewise.holds) fun _ => Likewise.refl
  · rw [hv]
    refine Fits.fails (fun r v r' e => ?_) fun r v r' e => ?_
    · obtain ⟨_, _, e, _⟩ := bind_ok_iff.1 e
      cases e
    · obtain ⟨_, _, e, _⟩ := bind_ok_iff.1 e
      have := ((Likewise.holds (q := q) _ _ _).1 e).1
      cases this

theorem sectionLoop_likewise : ∀ (n : Nat) (pre : List (UInt32 × Section)), Acceptable (pre.map Prod.snd) →
    ∀ (r : R) v r', sectionLoopDropping d q n (stateOf pre) r = (.ok v, r') ↔ sectionLoopWithin d n (stateOf pre) r = (.ok v, r')
  | 0, _, _, _, _, _ => Iff.rfl
  | n + 1, pre, hp, r, v, r' => by
    rw [sectionLoopDropping, sectionLoopWithin, bind_ok_iff, bind_ok_iff]
    refine exists_congr fun h => exists_congr fun r1 => and_congr ?_ ?_
    · rw [Likewise.holds (q := q) _ _ _, and_true]
    · cases h with
      | none => exact Iff.rfl
      | some h =>
        simp only
        rw [bind_ok_iff, bind_ok_iff]
        refine exists_congr fun st => exists_congr fun r2 => ?_
        rw [section_likewise hp _ _ _, and_true]
        refine and_congr_right fun hs => ?_
        have hs' : decodeSection h (stateOf pre) r1 = (.ok st, r2) := by
          rcases section_under (d := d) (h := h) (st := stateOf pre) r1 with e | e
          · rw [← e]; exact hs
          · rw [hs] at e; cases e
        obtain ⟨_, _, s, _, _, _, hacc, rfl⟩ := section_sound hp r1 _ _ hs'
        exact sectionLoop_likewise n _ (by simpa using hacc) _ _ _

theorem module_likewise (r : R) (m : Module) (r' : R) :
    decodeModuleDropping d q r = (.ok m, r') ↔ decodeModuleWithin d r = (.ok m, r') := by
  simp only [decodeModuleDropping, decodeModuleWithin, bind_ok_iff]
  refine exists_congr fun _ => exists_congr fun r1 => and_congr_right fun _ => exists_congr fun st => exists_congr fun r2 =>
    and_congr (sectionLoop_likewise _ [] Acceptable.nil _ _ _) ?_
  rw [Likewise.holds (q := q) _ _ _, and_true]

end

end Wadec
