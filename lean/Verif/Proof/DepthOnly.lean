import Verif.Model.Depth

/-! C66: the decoders with a call stack of limited size differ from the others only by running out of it. -/

namespace Wadec

variable {R : Type} [Read R]

/-- `d'` does what `d` does, or it runs out of stack. -/
def Under {ε α : Type} (d d' : Dec R ε α) : Prop := ∀ r, d' r = d r ∨ (d' r).1 = .fuel

theorem Under.refl {ε α : Type} {d : Dec R ε α} : Under d d := fun _ => .inl rfl

theorem Under.bind {ε α β : Type} {d d' : Dec R ε α} {f f' : α → Dec R ε β} (hd : Under d d')
    (hf : ∀ v, Under (f v) (f' v)) : Under (d >>= f) (d' >>= f') := by
  intro r
  simp only [Bind.bind, Dec.bind]
  rcases hd r with h | h
  · rw [h]
    rcases d r with ⟨res, r1⟩
    cases res with
    | ok v => exact hf v r1
    | _ => exact .inl rfl
  · refine .inr ?_
    generalize d' r = o at h
    obtain ⟨res, r1⟩ := o
    simp only at h
    subst h
    rfl

theorem Under.mapErr {ε ε' α : Type} {d d' : Dec R ε α} {g : ε → ε'} (hd : Under d d') :
    Under (d.mapErr g) (d'.mapErr g) := by
  intro r
  simp only [Dec.mapErr]
  rcases hd r with h | h
  · rw [h]; exact .inl rfl
  · refine .inr ?_
    generalize d' r = o at h
    obtain ⟨res, r1⟩ := o
    simp only at h
    subst h
    rfl

theorem Under.withTake {ε α : Type} {n : Nat} {d d' : Dec (Take R) ε α} (hd : Under d d') :
    Under (Dec.withTake n d : Dec R _ _) (Dec.withTake n d') := by
  intro r
  simp only [Dec.withTake]
  rcases hd ⟨n, r⟩ with h | h
  · rw [h]; exact .inl rfl
  · refine .inr ?_
    generalize d' ⟨n, r⟩ = o at h
    obtain ⟨res, r1⟩ := o
    simp only at h
    subst h
    rfl

theorem Under.ite {ε α : Type} {p : Prop} [Decidable p] {a a' b b' : Dec R ε α} (ha : Under a a') (hb : Under b b') :
    Under (if p then a else b) (if p then a' else b') := by
  split <;> assumption

theorem Under.fuel {ε α : Type} {d : Dec R ε α} : Under d Dec.outOfFuel := fun _ => .inr rfl

/-- A step that is the same on both sides. -/
theorem Under.step {ε α β : Type} {d : Dec R ε α} {f f' : α → Dec R ε β} (hf : ∀ v, Under (f v) (f' v)) :
    Under (d >>= f) (d >>= f') := Under.bind Under.refl hf

/-- The last step that is not. -/
theorem Under.last {ε α β : Type} {d d' : Dec R ε α} {f : α → Dec R ε β} (hd : Under d d') :
    Under (d >>= f) (d' >>= f) := Under.bind hd fun _ => Under.refl

theorem Under.seq {p p' : Dec R ParseError ParseResult} (h : Under p p') :
    ∀ n b acc, Under (parseSeq p n b acc) (parseSeq p' n b acc)
  | 0, _, _ => Under.refl
  | n + 1, b, acc => by
    refine Under.bind h fun v => ?_
    cases v with
    | Instruction i => exact Under.seq h n b _
    | _ => exact Under.refl

mutual
theorem contains_under : ∀ (d : Nat) (i : Instr) (c : Bool), containsDataIdxWithin d i = some c → containsDataIdx i = c
  | 0, i, c, h => by cases i <;> simp [containsDataIdxWithin] at h
  | d + 1, i, c, h => by
    cases i with
    | Block _ body => exact anyContains_under d body c (by simpa only [containsDataIdxWithin] using h)
    | Loop _ body => exact anyContains_under d body c (by simpa only [containsDataIdxWithin] using h)
    | TryTable _ _ body => exact anyContains_under d body c (by simpa only [containsDataIdxWithin] using h)
    | If _ t e =>
      simp only [containsDataIdxWithin] at h
      simp only [containsDataIdx]
      have h1 := anyContains_under d t
      have h2 := optContains_under d e
      generalize anyContainsDataIdxWithin d t = x at h h1
      match x, h, h1 with
      | none, h, _ => cases h
      | some true, h, h1 => cases h; rw [h1 true rfl]; rfl
      | some false, h, h1 => rw [h1 false rfl, h2 c h]; rfl
    | _ => simpa [containsDataIdxWithin, containsDataIdx] using h
theorem anyContains_under : ∀ (d : Nat) (is : List Instr) (c : Bool), anyContainsDataIdxWithin d is = some c →
    anyContainsDataIdx is = c
  | d, [], c, h => by simpa [anyContainsDataIdxWithin, anyContainsDataIdx] using h
  | d, i :: is, c, h => by
    simp only [anyContainsDataIdxWithin] at h
    simp only [anyContainsDataIdx]
    have h1 := contains_under d i
    have h2 := anyContains_under d is
    generalize containsDataIdxWithin d i = x at h h1
    match x, h, h1 with
    | none, h, _ => cases h
    | some true, h, h1 => cases h; rw [h1 true rfl]; rfl
    | some false, h, h1 => rw [h1 false rfl, h2 c h]; rfl
theorem optContains_under : ∀ (d : Nat) (o : Option (List Instr)) (c : Bool), optContainsDataIdxWithin d o = some c →
    optContainsDataIdx o = c
  | d, none, c, h => by simpa [optContainsDataIdxWithin, optContainsDataIdx] using h
  | d, some is, c, h => by
    simp only [optContainsDataIdxWithin] at h
    exact anyContains_under d is c h
end

theorem Under.loop {d : Nat} {p p' : Dec R ParseError ParseResult} (h : Under p p') :
    ∀ n body b, Under (decodeExprLoop p n body b) (decodeExprLoopWithin d p' n body b)
  | 0, _, _ => Under.refl
  | n + 1, body, b => by
    refine Under.bind (Under.mapErr h) fun v => ?_
    cases v with
    | Instruction i =>
      simp only
      have hc := contains_under d i
      generalize containsDataIdxWithin d i = x at hc
      cases x with
      | none => exact Under.fuel
      | some c => rw [hc c rfl]; exact Under.loop h n _ _
    | _ => exact Under.refl

theorem Under.listLoop {ε α σ : Type} {f f' : σ → Dec R ε (α × σ)} (hs : ∀ st, Under (f st) (f' st)) :
    ∀ n i st items, Under (decodeListLoop f n i st items) (decodeListLoop f' n i st items)
  | 0, _, _, _ => Under.refl
  | n + 1, i, st, items => Under.bind (Under.mapErr (hs st)) fun ⟨_, _⟩ => Under.listLoop hs n _ _ _

theorem Under.listS {ε α σ : Type} {f f' : σ → Dec R ε (α × σ)} {st : σ} (hs : ∀ st, Under (f st) (f' st)) :
    Under (decodeListS f st) (decodeListS f' st) :=
  Under.step fun _ => Under.step fun _ => Under.listLoop hs _ _ _ _

theorem Under.list {ε α : Type} {f f' : Dec R ε α} (hs : Under f f') : Under (decodeList f) (decodeList f') :=
  Under.last (Under.listS fun _ => Under.last hs)

theorem parse_under : ∀ n d, Under (R := R) (parse n) (parseWithin d n)
  | _, 0 => by rw [parseWithin]; exact Under.fuel
  | 0, d + 1 => Under.refl
  | n + 1, d + 1 => by
    have ih := parse_under n d
    rw [parse, parseWithin]
    refine Under.step fun v => ?_
    match v with
    | [] => exact Under.refl
    | _ :: _ :: _ => exact Under.refl
    | [op] =>
      refine Under.ite Under.refl (Under.ite Under.refl (Under.ite ?_ (Under.ite ?_ Under.refl)))
      · refine Under.step fun bt => Under.bind (ih.seq _ _ _) fun ⟨in1, parsed⟩ => ?_
        refine Under.ite Under.refl (Under.ite Under.refl (Under.ite ?_ Under.refl))
        cases parsed with
        | Else => exact Under.last (ih.seq _ _ _)
        | _ => exact Under.refl
      · exact Under.step fun bt => Under.step fun c => Under.last (ih.seq _ _ _)

section
variable {d : Nat}

theorem expr_under : Under (R := R) decodeExpr (decodeExprWithin d) :=
  fun r => (parse_under _ d).loop _ _ _ r

theorem expr'_under : Under (R := R) decodeExpr' (decodeExprWithin' d) := Under.last expr_under

theorem codeBody_under : Under (R := R) parseCodeBody (parseCodeBodyWithin d) :=
  Under.step fun _ => Under.last (Under.mapErr expr_under)

theorem code_under : Under (R := R) parseCode (parseCodeWithin d) :=
  Under.step fun _ => Under.last (Under.withTake codeBody_under)

theorem data_under : Under (R := R) parseData (parseDataWithin d) := by
  refine Under.step fun _ => Under.ite ?_ (Under.ite Under.refl (Under.ite ?_ Under.refl))
  · exact Under.last (Under.mapErr expr'_under)
  · exact Under.step fun _ => Under.last (Under.mapErr expr'_under)

theorem elemExprs_under : Under (R := R) elemExprs (elemExprsWithin d) :=
  Under.mapErr (Under.list expr'_under)

theorem elem_under : Under (R := R) parseElem (parseElemWithin d) := by
  refine Under.step fun _ => Under.ite ?_ (Under.ite Under.refl (Under.ite ?_ (Under.ite Under.refl
    (Under.ite ?_ (Under.ite ?_ (Under.ite ?_ (Under.ite ?_ Under.refl)))))))
  · exact Under.last (Under.mapErr expr'_under)
  · exact Under.step fun _ => Under.last (Under.mapErr expr'_under)
  · exact Under.bind (Under.mapErr expr'_under) fun _ => Under.last elemExprs_under
  · exact Under.step fun _ => Under.last elemExprs_under
  · refine Under.step fun _ => Under.bind (Under.mapErr expr'_under) fun _ => ?_
    exact Under.step fun _ => Under.last elemExprs_under
  · exact Under.step fun _ => Under.last elemExprs_under

theorem global_under : Under (R := R) parseGlobal (parseGlobalWithin d) :=
  Under.step fun _ => Under.last (Under.mapErr expr'_under)

theorem table_under : Under (R := R) decodeTable (decodeTableWithin d) := by
  refine Under.step fun _ => Under.ite ?_ Under.refl
  refine Under.step fun _ => Under.ite Under.refl ?_
  exact Under.step fun _ => Under.last (Under.mapErr expr'_under)

theorem sectionBody_under {k : SectionKind} {st : LoopState} :
    Under (R := R) (decodeSectionBody k st) (decodeSectionBodyWithin d k st) := by
  cases k with
  | Table => exact Under.last (Under.mapErr (Under.mapErr (Under.list table_under)))
  | Global => exact Under.last (Under.mapErr (Under.mapErr (Under.list global_under)))
  | Element => exact Under.last (Under.mapErr (Under.mapErr (Under.list elem_under)))
  | Code => exact Under.last (Under.mapErr (Under.mapErr (Under.list code_under)))
  | Data => exact Under.last (Under.mapErr (Under.mapErr (Under.list data_under)))
  | _ => exact Under.refl

theorem section_under {h : SectionHeader} {st : LoopState} :
    Under (R := R) (decodeSection h st) (decodeSectionWithin d h st) :=
  Under.step fun _ => Under.last (Under.withTake sectionBody_under)

theorem loop_under : ∀ (n : Nat) (st : LoopState), Under (R := R) (sectionLoop n st) (sectionLoopWithin d n st)
  | 0, _ => Under.refl
  | n + 1, st => by
    rw [sectionLoop, sectionLoopWithin]
    refine Under.step fun h => ?_
    cases h with
    | none => exact Under.refl
    | some h => exact Under.bind section_under fun st => loop_under n st

theorem module_under : Under (R := R) decodeModule (decodeModuleWithin d) := by
  intro r
  simp only [decodeModule, decodeModuleWithin]
  exact Under.step (fun _ => Under.last (loop_under _ _)) r

end

end Wadec
