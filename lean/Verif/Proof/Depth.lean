import Verif.Proof.Module
import Verif.Proof.Size
import Verif.Model.Depth

/-! C66: decoders with a call stack of limited size do the same on short inputs. -/

namespace Wadec

open LawfulRead Spec

variable {R : Type} [LawfulRead R]

/-- The two agree on all readers with fewer than `L` bytes. -/
def Same {ε α : Type} (L : Nat) (d d' : Dec R ε α) : Prop := ∀ r, (avail r).length < L → d r = d' r

theorem Same.refl {ε α : Type} {L : Nat} {d : Dec R ε α} : Same L d d := fun _ _ => rfl

/-- After `d` there are fewer than `L'` bytes left. -/
def Leaves {ε α : Type} (L : Nat) (d : Dec R ε α) (L' : Nat) : Prop :=
  ∀ r v r', (avail r).length < L → d r = (.ok v, r') → (avail r').length < L'

theorem Leaves.of_sound {ε α : Type} {L k : Nat} {d : Dec R ε α} {T : Bytes → α → Prop} (h : Sound d T)
    (hT : ∀ bs v, T bs v → k ≤ bs.length) : Leaves L d (L - k) := by
  intro r v r' hl hd
  obtain ⟨bs, ha, hb⟩ := h r v r' hd
  have := hT bs v hb
  rw [adv_avail ha, List.length_append] at hl
  omega

theorem Leaves.mapErr {ε ε' α : Type} {L L' : Nat} {d : Dec R ε α} {f : ε → ε'} (h : Leaves L d L') :
    Leaves L (d.mapErr f) L' := by
  intro r v r' hl hd
  simp only [Dec.mapErr] at hd
  rcases hd' : d r with ⟨res, r1⟩
  rw [hd'] at hd
  cases res with
  | ok v => cases hd; exact h r v _ hl hd'
  | _ => cases hd

theorem Same.bind {ε α β : Type} {L L' : Nat} {d d' : Dec R ε α} {f f' : α → Dec R ε β} (hd : Same L d d')
    (hl : Leaves L d L') (hf : ∀ v, Same L' (f v) (f' v)) : Same L (d >>= f) (d' >>= f') := by
  intro r hr
  simp only [Bind.bind, Dec.bind]
  rw [← hd r hr]
  rcases h : d r with ⟨res, r1⟩
  cases res with
  | ok v => exact hf v r1 (hl r v r1 hr h)
  | _ => rfl

theorem Same.ite {ε α : Type} {L : Nat} {p : Prop} [Decidable p] {a a' b b' : Dec R ε α} (ha : Same L a a')
    (hb : Same L b b') : Same L (if p then a else b) (if p then a' else b') := by
  split <;> assumption

theorem Same.seq {L : Nat} {p p' : Dec R ParseError ParseResult} (h : Same L p p') (hl : Leaves L p L) :
    ∀ n b acc, Same L (parseSeq p n b acc) (parseSeq p' n b acc)
  | 0, _, _ => Same.refl
  | n + 1, b, acc => by
    refine Same.bind h hl fun v => ?_
    cases v with
    | Instruction i => exact Same.seq h hl n b _
    | _ => exact Same.refl

mutual
/-- The search for data indices needs a call for every level of nesting and one more. -/
theorem contains_within : ∀ (d : Nat) (i : Instr), depthInstr i < d → containsDataIdxWithin d i = some (containsDataIdx i)
  | 0, i, h => absurd h (Nat.not_lt_zero _)
  | d + 1, i, h => by
    cases i with
    | Block _ body =>
      simp only [depthInstr] at h
      simp only [containsDataIdxWithin, containsDataIdx]
      exact anyContains_within d body (.inl (by omega))
    | Loop _ body =>
      simp only [depthInstr] at h
      simp only [containsDataIdxWithin, containsDataIdx]
      exact anyContains_within d body (.inl (by omega))
    | TryTable _ _ body =>
      simp only [depthInstr] at h
      simp only [containsDataIdxWithin, containsDataIdx]
      exact anyContains_within d body (.inl (by omega))
    | If _ t e =>
      simp only [depthInstr] at h
      simp only [containsDataIdxWithin, containsDataIdx]
      rw [anyContains_within d t (.inl (by omega)), optContains_within d e (by omega)]
      cases anyContainsDataIdx t <;> rfl
    | _ => rfl
theorem anyContains_within : ∀ (d : Nat) (is : List Instr), depthInstrs is < d ∨ is = [] →
    anyContainsDataIdxWithin d is = some (anyContainsDataIdx is)
  | d, [], _ => by simp [anyContainsDataIdxWithin, anyContainsDataIdx]
  | d, i :: is, h => by
    have h : depthInstrs (i :: is) < d := h.resolve_right (by simp)
    simp only [depthInstrs] at h
    simp only [anyContainsDataIdxWithin, anyContainsDataIdx]
    rw [contains_within d i (by omega), anyContains_within d is (.inl (by omega))]
    cases containsDataIdx i <;> rfl
theorem optContains_within : ∀ (d : Nat) (o : Option (List Instr)), depthOpt o < d →
    optContainsDataIdxWithin d o = some (optContainsDataIdx o)
  | d, none, _ => by simp [optContainsDataIdxWithin, optContainsDataIdx]
  | d, some is, h => by
    simp only [depthOpt] at h
    simp only [optContainsDataIdxWithin, optContainsDataIdx]
    exact anyContains_within d is (.inl h)
end

theorem Same.loop {d L : Nat} {p p' : Dec R ParseError ParseResult} (h : Same L p p') (hl : Leaves L p L)
    (hi : ∀ r i r', (avail r).length < L → p r = (.ok (.Instruction i), r') → depthInstr i < d) :
    ∀ n body b, Same L (decodeExprLoop p n body b) (decodeExprLoopWithin d p' n body b)
  | 0, _, _ => Same.refl
  | n + 1, body, b => by
    intro r hr
    rw [decodeExprLoop, decodeExprLoopWithin]
    have h1 := h r hr
    have h2 := hl r
    have h3 := hi r
    simp only [Bind.bind, Dec.bind, Dec.mapErr, ← h1]
    generalize p r = o at h2 h3
    obtain ⟨res, r1⟩ := o
    cases res with
    | ok v =>
      have hr1 := h2 v r1 hr rfl
      cases v with
      | Instruction i =>
        simp only [contains_within d i (h3 i r1 hr rfl)]
        exact Same.loop h hl hi n _ _ r1 hr1
      | _ => rfl
    | _ => rfl

theorem Leaves.byte {ε : Type} {L : Nat} {f : IoError → ε} :
    Leaves L (Dec.mapErr f (readExact 1 : Dec R IoError _)) (L - 1) :=
  Leaves.mapErr (Leaves.of_sound (k := 1) Sound.readExact fun bs v h => by rw [h.1, h.2]; exact Nat.le_refl _)

theorem parse_leaves {L n : Nat} : Leaves L (parse n : Dec R _ _) L :=
  Leaves.of_sound (k := 0) (parse_sound n) fun _ _ _ => Nat.zero_le _

theorem blockType_leaves {ε : Type} {L : Nat} {f : BlockTypeError → ε} :
    Leaves L (Dec.mapErr f (BlockType.decode : Dec R _ _)) (L - 1) :=
  Leaves.mapErr (Leaves.of_sound (k := 1) BlockType.sound fun _ _ h => BBlockType.pos h)

theorem seq_leaves {L n m : Nat} {b : Bool} {acc : List Instr} : Leaves L (parseSeq (parse n : Dec R _ _) m b acc) L :=
  Leaves.of_sound (k := 0) (parseSeq_sound (parse_sound n) m b acc) fun _ _ _ => Nat.zero_le _

theorem catches_leaves {ε : Type} {L : Nat} {f : DecodeListError CatchError → ε} :
    Leaves L (Dec.mapErr f (decodeList Catch.decode : Dec R _ _)) L :=
  Leaves.mapErr (Leaves.of_sound (k := 0) (list_sound Catch.sound) fun _ _ _ => Nat.zero_le _)

/-- With fewer than `2 * d` bytes to read, `d` nested calls are enough. -/
theorem parse_within : ∀ n d, Same (R := R) (2 * d) (parse n) (parseWithin d n)
  | _, 0 => fun r hr => by omega
  | 0, d + 1 => fun _ _ => rfl
  | n + 1, d + 1 => by
    have ih : Same (R := R) (2 * (d + 1) - 1 - 1) (parse n) (parseWithin d n) := parse_within n d
    rw [parse, parseWithin]
    refine Same.bind Same.refl Leaves.byte fun v => ?_
    match v with
    | [] => exact Same.refl
    | _ :: _ :: _ => exact Same.refl
    | [op] =>
      refine Same.ite Same.refl (Same.ite Same.refl (Same.ite ?_ (Same.ite ?_ Same.refl)))
      · refine Same.bind Same.refl blockType_leaves fun bt => ?_
        refine Same.bind (ih.seq parse_leaves _ _ _) seq_leaves fun ⟨in1, parsed⟩ => ?_
        refine Same.ite Same.refl (Same.ite Same.refl (Same.ite ?_ Same.refl))
        cases parsed with
        | Else => exact Same.bind (ih.seq parse_leaves _ _ _) seq_leaves fun x => Same.refl
        | _ => exact Same.refl
      · refine Same.bind Same.refl blockType_leaves fun bt => ?_
        refine Same.bind Same.refl catches_leaves fun c => ?_
        exact Same.bind (ih.seq parse_leaves _ _ _) seq_leaves fun x => Same.refl

theorem Same.mapErr {ε ε' α : Type} {L : Nat} {d d' : Dec R ε α} {f : ε → ε'} (h : Same L d d') :
    Same L (d.mapErr f) (d'.mapErr f) := by
  intro r hr
  simp only [Dec.mapErr, h r hr]

theorem Same.withTake {ε α : Type} {L n : Nat} {d d' : Dec (Take R) ε α} (h : Same L d d') :
    Same L (Dec.withTake n d : Dec R _ _) (Dec.withTake n d') := by
  intro r hr
  have ha : (avail (⟨n, r⟩ : Take R)).length < L := by
    show ((avail r).take n).length < L
    rw [List.length_take]
    omega
  simp only [Dec.withTake, h ⟨n, r⟩ ha]

/-- A step that is the same on both sides. -/
theorem Same.step {ε ε' α β : Type} {L : Nat} {d : Dec R ε α} {g : ε → ε'} {f f' : α → Dec R ε' β}
    {T : Bytes → α → Prop} (h : Sound d T) (hf : ∀ v, Same L (f v) (f' v)) :
    Same L (d.mapErr g >>= f) (d.mapErr g >>= f') :=
  Same.bind Same.refl (Leaves.mapErr (Leaves.of_sound (k := 0) h fun _ _ _ => Nat.zero_le _)) hf

/-- A step that is not. -/
theorem Same.then {ε α β : Type} {L : Nat} {d d' : Dec R ε α} {f f' : α → Dec R ε β}
    {T : Bytes → α → Prop} (hs : Same L d d') (h : Sound d T) (hf : ∀ v, Same L (f v) (f' v)) :
    Same L (d >>= f) (d' >>= f') :=
  Same.bind hs (Leaves.of_sound (k := 0) h fun _ _ _ => Nat.zero_le _) hf

theorem Same.thenErr {ε ε' α β : Type} {L : Nat} {d d' : Dec R ε α} {g : ε → ε'} {f f' : α → Dec R ε' β}
    {T : Bytes → α → Prop} (hs : Same L d d') (h : Sound d T) (hf : ∀ v, Same L (f v) (f' v)) :
    Same L (d.mapErr g >>= f) (d'.mapErr g >>= f') :=
  Same.then hs.mapErr (Sound.mapErr h) hf

/-- The last step that is not. -/
theorem Same.last {ε α β : Type} {L : Nat} {d d' : Dec R ε α} {f : α → Dec R ε β} (hs : Same L d d') :
    Same L (d >>= f) (d' >>= f) := by
  intro r hr
  simp only [Bind.bind, Dec.bind, hs r hr]

section
variable {d : Nat}

theorem expr_within : Same (R := R) (2 * d) decodeExpr (decodeExprWithin d) := by
  intro r h
  refine (parse_within _ d).loop parse_leaves (fun q i q' hq e => ?_) _ _ _ r h
  obtain ⟨bs, ha, hb⟩ := parse_sound _ q _ _ e
  have hl := congrArg List.length (adv_avail ha)
  rw [List.length_append] at hl
  have := depth_instr hb
  omega

theorem expr'_within : Same (R := R) (2 * d) decodeExpr' (decodeExprWithin' d) := Same.last expr_within

theorem Same.listLoop {ε α σ : Type} {L : Nat} {f f' : σ → Dec R ε (α × σ)} {T : σ → Bytes → α × σ → Prop}
    (hs : ∀ st, Same L (f st) (f' st)) (h : ∀ st, Sound (f st) (T st)) :
    ∀ n i st items, Same L (decodeListLoop f n i st items) (decodeListLoop f' n i st items)
  | 0, _, _, _ => Same.refl
  | n + 1, i, st, items => Same.thenErr (hs st) (h st) fun ⟨_, _⟩ => Same.listLoop hs h n _ _ _

theorem Same.listS {ε α σ : Type} {L : Nat} {f f' : σ → Dec R ε (α × σ)} {T : σ → Bytes → α × σ → Prop} {st : σ}
    (hs : ∀ st, Same L (f st) (f' st)) (h : ∀ st, Sound (f st) (T st)) :
    Same L (decodeListS f st) (decodeListS f' st) := by
  refine Same.step decodeU32_sound fun n => ?_
  refine Same.bind (L' := L) Same.refl ?_ fun _ => Same.listLoop hs h _ _ _ _
  intro r v r' hr hd
  cases hd
  have := adv_avail (adv_reserve n.toNat r)
  rw [List.nil_append] at this
  rwa [← this]

theorem Same.list {ε α : Type} {L : Nat} {f f' : Dec R ε α} {T : Bytes → α → Prop}
    (hs : Same L f f') (h : Sound f T) : Same L (decodeList f) (decodeList f') :=
  Same.last (Same.listS (T := fun _ bs v => T bs v.1) (fun _ => Same.last hs)
    fun _ => Sound.bind h fun v bs hb => Sound.pure (by simpa using hb))

theorem codeBody_within : Same (R := R) (2 * d) parseCodeBody (parseCodeBodyWithin d) := by
  refine Same.step (listS_sound fun st => codeLocal_sound st) fun ⟨_, _⟩ => ?_
  exact Same.last (Same.mapErr expr_within)

theorem code_within : Same (R := R) (2 * d) parseCode (parseCodeWithin d) :=
  Same.step decodeU32_sound fun _ => Same.last (Same.withTake codeBody_within)

theorem data_within : Same (R := R) (2 * d) parseData (parseDataWithin d) := by
  refine Same.step decodeU32_sound fun _ => Same.ite ?_ (Same.ite Same.refl (Same.ite ?_ Same.refl))
  · exact Same.last (Same.mapErr expr'_within)
  · exact Same.step MemIdx.sound fun _ => Same.last (Same.mapErr expr'_within)

theorem elemExprs_within : Same (R := R) (2 * d) elemExprs (elemExprsWithin d) :=
  Same.mapErr (Same.list expr'_within expr'_sound)

theorem elem_within : Same (R := R) (2 * d) parseElem (parseElemWithin d) := by
  refine Same.step decodeU32_sound fun _ => Same.ite ?_ (Same.ite Same.refl (Same.ite ?_ (Same.ite Same.refl
    (Same.ite ?_ (Same.ite ?_ (Same.ite ?_ (Same.ite ?_ Same.refl)))))))
  · exact Same.last (Same.mapErr expr'_within)
  · exact Same.step TableIdx.sound fun _ => Same.last (Same.mapErr expr'_within)
  · exact Same.thenErr expr'_within expr'_sound fun _ => Same.last elemExprs_within
  · exact Same.step RefType.sound fun _ => Same.last elemExprs_within
  · refine Same.step TableIdx.sound fun _ => Same.thenErr expr'_within expr'_sound fun _ => ?_
    exact Same.step RefType.sound fun _ => Same.last elemExprs_within
  · exact Same.step RefType.sound fun _ => Same.last elemExprs_within

theorem global_within : Same (R := R) (2 * d) parseGlobal (parseGlobalWithin d) :=
  Same.step GlobalType.sound fun _ => Same.last (Same.mapErr expr'_within)

theorem table_within : Same (R := R) (2 * d) decodeTable (decodeTableWithin d) := by
  refine Same.step Sound.readByte fun _ => Same.ite ?_ Same.refl
  refine Same.step Sound.readByte fun _ => Same.ite Same.refl ?_
  exact Same.step TableType.sound fun _ => Same.last (Same.mapErr expr'_within)

theorem sectionBody_within {k : SectionKind} {st : LoopState} :
    Same (R := R) (2 * d) (decodeSectionBody k st) (decodeSectionBodyWithin d k st) := by
  cases k with
  | Table => exact Same.last (Same.mapErr (Same.mapErr (Same.list table_within table_sound)))
  | Global => exact Same.last (Same.mapErr (Same.mapErr (Same.list global_within global_sound)))
  | Element => exact Same.last (Same.mapErr (Same.mapErr (Same.list elem_within elem_sound)))
  | Code => exact Same.last (Same.mapErr (Same.mapErr (Same.list code_within code_sound)))
  | Data => exact Same.last (Same.mapErr (Same.mapErr (Same.list data_within data_sound)))
  | _ => exact Same.refl

theorem section_within {h : SectionHeader} {st : LoopState} :
    Same (R := R) (2 * d) (decodeSection h st) (decodeSectionWithin d h st) := by
  refine Same.bind (L' := 2 * d) Same.refl ?_ fun _ => Same.last (Same.withTake sectionBody_within)
  intro r v r' hr hd
  have hq : Sound (R := R) (st.module.validateSectionKindExpected h.kind) (fun bs _ => bs = []) := by
    unfold Module.validateSectionKindExpected
    split
    · exact Sound.pure rfl
    · refine Sound.ite (fun _ => Sound.pure rfl) fun _ => Sound.ite (fun _ => Sound.err) fun _ =>
        Sound.ite (fun _ => Sound.err) fun _ => Sound.pure rfl
  obtain ⟨bs, ha, rfl⟩ := hq r v r' hd
  have := adv_avail ha
  rw [List.nil_append] at this
  rwa [← this]

theorem loop_within : ∀ (n : Nat) (pre : List (UInt32 × Section)), Acceptable (pre.map Prod.snd) →
    Same (R := R) (2 * d) (sectionLoop n (stateOf pre)) (sectionLoopWithin d n (stateOf pre))
  | 0, _, _ => Same.refl
  | n + 1, pre, hp => by
    intro r hr
    rw [sectionLoop, sectionLoopWithin]
    simp only [Bind.bind, Dec.bind, Dec.mapErr]
    cases hd : decodeSectionHeader r with
    | mk res r1 =>
      cases res with
      | ok o =>
        cases o with
        | none => rfl
        | some h =>
          have h1 : (avail r1).length < 2 * d := by
            cases ha : avail r with
            | nil =>
              obtain ⟨r2, h2⟩ := header_nil ha
              rw [hd] at h2
              split at h2 <;> cases h2
            | cons b rest =>
              obtain ⟨r2, a2, h2⟩ := header_cons ha
              rw [hd] at h2
              obtain ⟨bs, a3, _⟩ := headerRest_sound r2 _ _ h2.symm
              have e2 := congrArg List.length (adv_avail a2)
              have e3 := congrArg List.length (adv_avail a3)
              simp only [List.length_append] at e2 e3
              omega
          show Dec.bind (decodeSection h (stateOf pre)) (fun st => sectionLoop n st) r1 =
            Dec.bind (decodeSectionWithin d h (stateOf pre)) (fun st => sectionLoopWithin d n st) r1
          have hw := section_within (h := h) (st := stateOf pre) r1 h1
          cases hs : decodeSection h (stateOf pre) r1 with
          | mk res2 r2 =>
            rw [hs] at hw
            simp only [Dec.bind, hs, ← hw]
            cases res2 with
            | ok st =>
              obtain ⟨bs, a2, s, _, _, _, hacc, rfl⟩ := section_sound hp r1 _ _ hs
              have e2 := congrArg List.length (adv_avail a2)
              simp only [List.length_append] at e2
              exact loop_within n _ (by simpa using hacc) r2 (by omega)
            | _ => rfl
      | _ => rfl

theorem module_within : Same (R := R) (2 * d) decodeModule (decodeModuleWithin d) := by
  intro r hr
  simp only [decodeModule, decodeModuleWithin]
  refine Same.step (L := 2 * d) preamble_sound (fun _ => ?_) r hr
  exact Same.last (loop_within _ [] Acceptable.nil)

end

end Wadec
