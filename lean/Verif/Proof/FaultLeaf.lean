import Verif.Proof.FaultInstr

/-! C55: the errors of the instructions that contain no other instructions. -/

namespace Wadec

open LawfulRead Spec

variable {R : Type} [LawfulRead R]

/-- One immediate. -/
local macro "e1" t:term:max c:term:max : tactic =>
  `(tactic| (intro ho; subst ho; exact Errs.last (Errs.mapErr (Errs.mono (Faults.errs $t)
    fun _ _ _ h => Or.inl ($c h)))))
/-- Two immediates. -/
local macro "e2" t:term:max c:term:max s:term:max u:term:max d:term:max : tactic =>
  `(tactic| (intro ho; subst ho; exact Errs.bind (Errs.mapErr (Errs.mono (Faults.errs $t)
    fun _ _ _ h => Or.inl ($c h))) (Sound.mapErr $s) fun _ _ h1 =>
      Errs.last (Errs.mapErr (Errs.mono (Faults.errs $u) fun _ _ _ h => Or.inl ($d h1 h)))))

theorem castop_errs : Errs (R := R) decodeCastop (fun x bs e =>
    (bs = [] ∧ e = .ReadCastNullabilityMarker x.toErr) ∨
    ∃ m t, bs = m :: t ∧ (∀ v, ¬ BCastop [m] v) ∧ e = .InvalidCastNullabilityMarker m) := by
  refine Errs.byte (fun x => .inl ⟨rfl, rfl⟩) fun m => ?_
  refine Errs.ite (fun _ => Errs.pure) fun h0 => Errs.ite (fun _ => Errs.pure) fun h1 =>
    Errs.ite (fun _ => Errs.pure) fun h2 => Errs.ite (fun _ => Errs.pure) fun h3 => Errs.err fun x t => ?_
  refine .inr ⟨m, t, rfl, fun v hv => ?_, rfl⟩
  cases hv <;> contradiction

theorem castop_failsIn {m : UInt8} {x : End} {t : Bytes} (h : ∀ v, ¬ BCastop [m] v) :
    FailsIn (R := R) decodeCastop x (m :: t) (.InvalidCastNullabilityMarker m) := by
  refine FailsIn.byte ?_
  refine FailsIn.ite_neg ?_ (FailsIn.ite_neg ?_ (FailsIn.ite_neg ?_ (FailsIn.ite_neg ?_ FailsIn.err))) <;>
    rintro rfl
  · exact h _ .nn
  · exact h _ .yn
  · exact h _ .ny
  · exact h _ .yy

/-- A leaf exists, so the decoder does not fail at once. -/
theorem not_runs_err {e : ParseError} {imms : Bytes} {i : Instr}
    (h : Runs (R := Src) (Dec.err e : Dec Src ParseError Instr) imms i) : False := by
  obtain ⟨r, h, _⟩ := h (Src.ofBytes imms) [] (by show Src.bytes [.data imms] = _; cases imms <;> simp [Src.bytes])
  cases h

theorem parseFB_errs (op : UInt32) : Errs (R := R) (parseFB op) (fun x bs e =>
    FImm x (.fb op.toNat) bs e ∨ (Unassigned (.fb op.toNat) ∧ e = .InvalidMarkerByteAfterFB op)) := by
  have ht : ∀ {n : Nat} {x : End} {b : Bytes} {e : DecodeTypeIdxError}, n ≤ 19 → n ≠ 15 → FTypeIdx x b e →
      FImm x (.fb n) b (.Aggregate (.TypeIdx e)) := FImm.aggType
  have un : (parseFB op : Dec Src _ _) = Dec.err (.InvalidMarkerByteAfterFB op) → Unassigned (.fb op.toNat) := by
    rintro he ⟨imms, i, hl⟩
    have := parseFB_runs (R := Src) hl
    rw [he] at this
    exact not_runs_err this
  unfold parseFB at un ⊢
  refine Errs.ite ?_ fun _ => Errs.ite ?_ fun _ => Errs.ite ?_ fun _ => Errs.ite ?_ fun _ =>
    Errs.ite ?_ fun _ => Errs.ite ?_ fun _ => Errs.ite ?_ fun _ => Errs.ite ?_ fun _ =>
    Errs.ite ?_ fun _ => Errs.ite ?_ fun _ => Errs.ite ?_ fun _ => Errs.ite ?_ fun _ =>
    Errs.ite ?_ fun _ => Errs.ite ?_ fun _ => Errs.ite ?_ fun _ => Errs.ite ?_ fun _ =>
    Errs.ite ?_ fun _ => Errs.ite ?_ fun _ => Errs.ite ?_ fun _ => Errs.ite ?_ fun _ =>
    Errs.ite ?_ fun _ => ?_
  · e1 TypeIdx.faults (FImm.aggType (by decide) (by decide))
  · e1 TypeIdx.faults (FImm.aggType (by decide) (by decide))
  · e2 TypeIdx.faults (FImm.aggType (by decide) (by decide)) TypeIdx.sound u32_faults (FImm.field (by decide))
  · e2 TypeIdx.faults (FImm.aggType (by decide) (by decide)) TypeIdx.sound u32_faults (FImm.field (by decide))
  · e2 TypeIdx.faults (FImm.aggType (by decide) (by decide)) TypeIdx.sound u32_faults (FImm.field (by decide))
  · e2 TypeIdx.faults (FImm.aggType (by decide) (by decide)) TypeIdx.sound u32_faults (FImm.field (by decide))
  · e1 TypeIdx.faults (FImm.aggType (by decide) (by decide))
  · e1 TypeIdx.faults (FImm.aggType (by decide) (by decide))
  · e2 TypeIdx.faults (FImm.aggType (by decide) (by decide)) TypeIdx.sound u32_faults FImm.length
  · e2 TypeIdx.faults (FImm.aggType (by decide) (by decide)) TypeIdx.sound DataIdx.faults (FImm.aggData (by decide))
  · e2 TypeIdx.faults (FImm.aggType (by decide) (by decide)) TypeIdx.sound ElemIdx.faults (FImm.aggElem (by decide))
  · e1 TypeIdx.faults (FImm.aggType (by decide) (by decide))
  · e1 TypeIdx.faults (FImm.aggType (by decide) (by decide))
  · e1 TypeIdx.faults (FImm.aggType (by decide) (by decide))
  · e1 TypeIdx.faults (FImm.aggType (by decide) (by decide))
  · e1 TypeIdx.faults (FImm.aggType (by decide) (by decide))
  · e2 TypeIdx.faults (FImm.aggType (by decide) (by decide)) TypeIdx.sound TypeIdx.faults FImm.copySource
  · e2 TypeIdx.faults (FImm.aggType (by decide) (by decide)) TypeIdx.sound DataIdx.faults (FImm.aggData (by decide))
  · e2 TypeIdx.faults (FImm.aggType (by decide) (by decide)) TypeIdx.sound ElemIdx.faults (FImm.aggElem (by decide))
  · rintro ⟨h1, h2⟩
    rw [UInt32.le_iff_toNat_le] at h1 h2
    have h1 : 20 ≤ op.toNat := h1
    have h2 : op.toNat ≤ 23 := h2
    refine Errs.bind (Errs.mapErr (Errs.mono HeapType.faults.errs fun x b e h => .inl (.heap ?_ h)))
      (Sound.mapErr HeapType.sound) fun t b _ => ?_
    · have : op.toNat = 20 ∨ op.toNat = 21 ∨ op.toNat = 22 ∨ op.toNat = 23 := by omega
      rcases this with h | h | h | h <;> simp [h]
    · exact Errs.ite (fun _ => Errs.pure) fun _ => Errs.ite (fun _ => Errs.pure) fun _ =>
        Errs.ite (fun _ => Errs.pure) fun _ => Errs.ite (fun _ => Errs.pure) fun _ => Errs.panic
  · intro ho
    have hm : Opcode.fb op.toNat ∈ [.fb 24, .fb 25] := by rcases ho with rfl | rfl <;> decide
    refine Errs.bind (Errs.mapErr (Errs.mono castop_errs ?_)) (Sound.mapErr castop_sound) ?_
    · rintro x b e (⟨rfl, rfl⟩ | ⟨m, t, rfl, hv, rfl⟩)
      · exact .inl (.castMissing hm)
      · exact .inl (.castMarker hm hv)
    · rintro ⟨n1, n2⟩ b0 h0
      refine Errs.bind (Errs.mapErr (Errs.mono LabelIdx.faults.errs fun x b e h => .inl (.castLabel hm h0 h)))
        (Sound.mapErr LabelIdx.sound) fun l b1 h1 => ?_
      refine Errs.bind (Errs.mapErr (Errs.mono HeapType.faults.errs fun x b e h => .inl (.castFrom hm h0 h1 h)))
        (Sound.mapErr HeapType.sound) fun t b2 h2 => ?_
      refine Errs.bind (Errs.mapErr (Errs.mono HeapType.faults.errs fun x b e h => .inl (.castTo hm h0 h1 h2 h)))
        (Sound.mapErr HeapType.sound) fun t b2 h2 => ?_
      exact Errs.ite (fun _ => Errs.pure) fun _ => Errs.pure
  · split
    · exact Errs.pure
    · rename_i hl
      refine Errs.err fun x b => .inr ⟨un ?_, rfl⟩
      simp only [*, ↓reduceIte]

theorem parseFC_errs (op : UInt32) : Errs (R := R) (parseFC op) (fun x bs e =>
    FImm x (.fc op.toNat) bs e ∨ (Unassigned (.fc op.toNat) ∧ e = .InvalidMarkerByteAfterFC op)) := by
  have un : (parseFC op : Dec Src _ _) = Dec.err (.InvalidMarkerByteAfterFC op) → Unassigned (.fc op.toNat) := by
    rintro he ⟨imms, i, hl⟩
    have := parseFC_runs (R := Src) hl
    rw [he] at this
    exact not_runs_err this
  unfold parseFC at un ⊢
  refine Errs.ite ?_ fun _ => Errs.ite ?_ fun _ => Errs.ite ?_ fun _ => Errs.ite ?_ fun _ =>
    Errs.ite ?_ fun _ => Errs.ite ?_ fun _ => Errs.ite ?_ fun _ => Errs.ite ?_ fun _ =>
    Errs.ite ?_ fun _ => Errs.ite ?_ fun _ => ?_
  · e2 DataIdx.faults (FImm.memData (by decide)) DataIdx.sound MemIdx.faults FImm.memInit
  · e1 DataIdx.faults (FImm.memData (by decide))
  · e2 MemIdx.faults (FImm.memory (by decide)) MemIdx.sound MemIdx.faults FImm.memCopy
  · e1 MemIdx.faults (FImm.memory (by decide))
  · e2 ElemIdx.faults (FImm.tabElem (by decide)) ElemIdx.sound TableIdx.faults FImm.tabInit
  · e1 ElemIdx.faults (FImm.tabElem (by decide))
  · e2 TableIdx.faults (FImm.tab (by decide)) TableIdx.sound TableIdx.faults FImm.tabCopy
  · e1 TableIdx.faults (FImm.tab (by decide))
  · e1 TableIdx.faults (FImm.tab (by decide))
  · e1 TableIdx.faults (FImm.tab (by decide))
  · split
    · exact Errs.pure
    · rename_i hl
      refine Errs.err fun x b => .inr ⟨un ?_, rfl⟩
      simp only [*, ↓reduceIte]

theorem vecBytes_errs {F : End → Bytes → ParseError → Prop}
    (h : ∀ x b e, FBytes 16 x b e → F x b (.Vector (.ReadImmediateBytes e))) :
    Errs (R := R) vecBytes F := by
  refine Errs.bind (Errs.mapErr (Errs.mono bytes_faults.errs h)) (Sound.mapErr Sound.readExact) ?_
  rintro buf b ⟨rfl, hl⟩
  rw [dif_pos hl]
  exact Errs.pure

theorem parseFD_errs (op : UInt32) : Errs (R := R) (parseFD op) (fun x bs e =>
    FImm x (.fd op.toNat) bs e ∨ (Unassigned (.fd op.toNat) ∧ e = .Vector (.InvalidOpcode op))) := by
  have un : (parseFD op : Dec Src _ _) = Dec.err (.Vector (.InvalidOpcode op)) → Unassigned (.fd op.toNat) := by
    rintro he ⟨imms, i, hl⟩
    have := parseFD_runs (R := Src) hl
    rw [he] at this
    exact not_runs_err this
  unfold parseFD at un ⊢
  refine Errs.ite (fun ho => ?_) fun _ => Errs.ite (fun ho => ?_) fun _ => Errs.ite ?_ fun _ =>
    Errs.ite ?_ fun _ => Errs.ite (fun ho => ?_) fun _ => ?_
  · cases hp : memFDTable.lookup op with
    | none => exact absurd hp (memFD_total ho)
    | some p =>
      refine Errs.last (f := fun m => Instr.mem p m) (Errs.mapErr (Errs.mono Memarg.faults.errs fun x b e h => .inl ?_))
      exact .memVec (memFD_ok _ (lookup_mem hp)) h
  · cases hp : memLaneFDTable.lookup op with
    | none => exact absurd hp (memLaneFD_total ho)
    | some p =>
      have hop := memLaneFD_ok _ (lookup_mem hp)
      simp only at hop
      rw [← hop]
      exact Errs.bind (Errs.mapErr (Errs.mono Memarg.faults.errs fun x b e h => .inl (.memLane h)))
        (Sound.mapErr Memarg.sound) fun m b hm =>
          Errs.last (f := fun l => Instr.memLane p m l) (Errs.mapErr (Errs.mono LaneIdx.faults.errs fun x b e h => .inl (.memLaneLane hm h)))
  · rintro rfl
    exact Errs.last (vecBytes_errs fun x b e h => .inl (.bytes (by decide) h))
  · rintro rfl
    exact Errs.last (vecBytes_errs fun x b e h => .inl (.bytes (by decide) h))
  · cases hp : laneFDTable.lookup op with
    | none => exact absurd hp (laneFD_total ho)
    | some p =>
      have hop := laneFD_ok _ (lookup_mem hp)
      simp only at hop
      rw [← hop]
      exact Errs.last (f := fun l => Instr.lane p l) (Errs.mapErr (Errs.mono LaneIdx.faults.errs fun x b e h => .inl (.lane h)))
  · split
    · exact Errs.pure
    · rename_i hl
      refine Errs.err fun x b => .inr ⟨un ?_, rfl⟩
      simp only [*, ↓reduceIte]

/-! ### One-byte opcodes -/

local macro "b1" t:term:max c:term:max : tactic =>
  `(tactic| (intro ho; subst ho; exact Errs.last (Errs.mapErr (Errs.mono (Faults.errs $t)
    fun _ _ _ h => FOp.imm BOpcode.byte ($c h)))))
local macro "b2" t:term:max c:term:max s:term:max u:term:max d:term:max : tactic =>
  `(tactic| (intro ho; subst ho; exact Errs.bind (Errs.mapErr (Errs.mono (Faults.errs $t)
    fun _ _ _ h => FOp.imm BOpcode.byte ($c h))) (Sound.mapErr $s) fun _ _ h1 =>
      Errs.last (Errs.mapErr (Errs.mono (Faults.errs $u) fun _ _ _ h => FOp.imm BOpcode.byte ($d h1 h)))))

theorem labels_faults : Faults (decodeList LabelIdx.decode : Dec R _ _) (FList FLabelIdx BLabelIdx) :=
  list_faults LabelIdx.sound (fun _ _ => LabelIdx.runs) LabelIdx.faults

set_option maxRecDepth 4000 in
theorem parseSimple_errs (op : UInt8) (hop : op ∉ [0x0B, 0x05, 0x02, 0x03, 0x04, 0x1F]) :
    Errs (R := R) (parseSimple op) (fun x bs e => FOp x (op :: bs) e) := by
  have un : (parseSimple op : Dec Src _ _) = Dec.err (.InvalidOpcode op) → UnassignedByte op := by
    intro he
    simp only [List.mem_cons, List.not_mem_nil, or_false, not_or] at hop
    refine ⟨hop.1, hop.2.1, ?_⟩
    rintro ⟨bs, i, hi⟩
    generalize hb : op :: bs = bs' at hi
    cases hi with
    | leaf h1 h2 =>
      have := parseSimple_runs (R := Src) (op := op) (bs := bs) ⟨_, _, _, hb, h1, h2⟩
      rw [he] at this
      exact not_runs_err this
    | _ => cases hb; simp at hop
  unfold parseSimple at un ⊢
  refine Errs.ite ?_ fun _ => Errs.ite ?_ fun _ => Errs.ite ?_ fun _ => Errs.ite ?_ fun _ =>
    Errs.ite ?_ fun _ => Errs.ite ?_ fun _ => Errs.ite ?_ fun _ => Errs.ite ?_ fun _ =>
    Errs.ite ?_ fun _ => Errs.ite ?_ fun _ => Errs.ite ?_ fun _ => Errs.ite ?_ fun _ =>
    Errs.ite ?_ fun _ => Errs.ite ?_ fun _ => Errs.ite ?_ fun _ => Errs.ite ?_ fun _ =>
    Errs.ite ?_ fun _ => Errs.ite ?_ fun _ => Errs.ite ?_ fun _ => Errs.ite ?_ fun _ =>
    Errs.ite ?_ fun _ => Errs.ite ?_ fun _ => Errs.ite ?_ fun _ => Errs.ite ?_ fun _ =>
    Errs.ite ?_ fun _ => Errs.ite ?_ fun _ => Errs.ite ?_ fun _ => Errs.ite ?_ fun _ =>
    Errs.ite ?_ fun _ => Errs.ite ?_ fun _ => Errs.ite ?_ fun _ => Errs.ite ?_ fun _ =>
    Errs.ite ?_ fun _ => ?_
  · exact fun _ => Errs.pure
  · b1 valTypes_faults FImm.types
  · b1 TagIdx.faults FImm.tag
  · b1 LabelIdx.faults (FImm.label (by decide))
  · b1 LabelIdx.faults (FImm.label (by decide))
  · b2 labels_faults FImm.labels (list_sound LabelIdx.sound) LabelIdx.faults FImm.lastLabel
  · b1 FuncIdx.faults (FImm.func (by decide))
  · b2 TypeIdx.faults (FImm.type (by decide)) TypeIdx.sound TableIdx.faults (FImm.table (by decide))
  · b1 FuncIdx.faults (FImm.func (by decide))
  · b2 TypeIdx.faults (FImm.type (by decide)) TypeIdx.sound TableIdx.faults (FImm.table (by decide))
  · b1 TypeIdx.faults (FImm.type (by decide))
  · b1 TypeIdx.faults (FImm.type (by decide))
  · b1 LabelIdx.faults (FImm.label (by decide))
  · b1 LabelIdx.faults (FImm.label (by decide))
  · b1 HeapType.faults (FImm.heap (by decide))
  · b1 FuncIdx.faults FImm.refFunc
  · rintro rfl
    refine Errs.bind (Errs.mapErr (Errs.mono u32_faults.errs fun x b e h => .fbNumber h))
      (Sound.mapErr decodeU32_sound) fun n b hn => Errs.mono (parseFB_errs n) ?_
    rintro x t e (h | ⟨h, rfl⟩)
    · exact FOp.imm (.fb hn) h
    · exact .fbUnknown hn h
  · b1 LocalIdx.faults (FImm.local (by decide))
  · b1 LocalIdx.faults (FImm.local (by decide))
  · b1 LocalIdx.faults (FImm.local (by decide))
  · b1 GlobalIdx.faults (FImm.global (by decide))
  · b1 GlobalIdx.faults (FImm.global (by decide))
  · b1 TableIdx.faults (FImm.tab (by decide))
  · b1 TableIdx.faults (FImm.tab (by decide))
  · intro ho
    cases hp : memTable.lookup op with
    | none => exact absurd hp (mem_total ho)
    | some p =>
      exact Errs.last (f := fun m => Instr.mem p m) (Errs.mapErr (Errs.mono Memarg.faults.errs fun x b e h =>
        FOp.imm BOpcode.byte (.mem (mem_ok _ (lookup_mem hp)) h)))
  · b1 MemIdx.faults (FImm.memory (by decide))
  · b1 MemIdx.faults (FImm.memory (by decide))
  · b1 i32_faults FImm.i32
  · b1 i64_faults FImm.i64
  · b1 f32_faults FImm.f32
  · b1 f64_faults FImm.f64
  · rintro rfl
    refine Errs.bind (Errs.mapErr (Errs.mono u32_faults.errs fun x b e h => .fcNumber h))
      (Sound.mapErr decodeU32_sound) fun n b hn => Errs.mono (parseFC_errs n) ?_
    rintro x t e (h | ⟨h, rfl⟩)
    · exact FOp.imm (.fc hn) h
    · exact .fcUnknown hn h
  · rintro rfl
    refine Errs.bind (Errs.mapErr (Errs.mono u32_faults.errs fun x b e h => .fdNumber h))
      (Sound.mapErr decodeU32_sound) fun n b hn => Errs.mono (parseFD_errs n) ?_
    rintro x t e (h | ⟨h, rfl⟩)
    · exact FOp.imm (.fd hn) h
    · exact .fdUnknown hn h
  · split
    · exact Errs.pure
    · rename_i hl
      refine Errs.err fun x b => .unknown (un ?_)
      simp only [*, ↓reduceIte]

/-! ### The other direction -/

/-- descend to the arm selected by a literal opcode -/
local macro "farm" : tactic =>
  `(tactic| repeat (first | refine FailsIn.ite_pos (by decide) ?_ | refine FailsIn.ite_neg (by decide) ?_))

/-- Which literal is the opcode? -/
local macro "lit" h:ident : tactic =>
  `(tactic| simp only [List.mem_cons, List.not_mem_nil, or_false] at $h:ident)

theorem parseFB_failsIn {op : UInt32} {x : End} {bs : Bytes} {e : ParseError}
    (h : FImm x (.fb op.toNat) bs e) : FailsIn (R := R) (parseFB op) x bs e := by
  generalize ho : Opcode.fb op.toNat = o at h
  cases h with
  | @memLane _ _ p => cases p <;> cases ho
  | @memLaneLane _ _ _ _ p => cases p <;> cases ho
  | @lane _ _ p => cases p <;> cases ho
  | @aggType _ _ n h1 h2 h3 =>
    obtain rfl := opfb_inj ho
    have : n = 0 ∨ n = 1 ∨ n = 2 ∨ n = 3 ∨ n = 4 ∨ n = 5 ∨ n = 6 ∨ n = 7 ∨ n = 8 ∨ n = 9 ∨ n = 10 ∨
      n = 11 ∨ n = 12 ∨ n = 13 ∨ n = 14 ∨ n = 16 ∨ n = 17 ∨ n = 18 ∨ n = 19 := by omega
    rcases this with rfl | rfl | rfl | rfl | rfl | rfl | rfl | rfl | rfl | rfl | rfl | rfl | rfl |
      rfl | rfl | rfl | rfl | rfl | rfl <;>
      (unfold parseFB; farm; exact FailsIn.bind1 (ffail TypeIdx.faults))
  | field hm h1 h2 =>
    lit hm
    rcases hm with rfl | rfl | rfl | rfl <;> (obtain rfl := opfb_inj ho) <;>
      (unfold parseFB; farm; exact FailsIn.bind2 (Runs.mapErr (TypeIdx.runs h1)) (FailsIn.bind1 (ffail u32_faults)))
  | length h1 h2 =>
    obtain rfl := opfb_inj ho
    unfold parseFB; farm; exact FailsIn.bind2 (Runs.mapErr (TypeIdx.runs h1)) (FailsIn.bind1 (ffail u32_faults))
  | aggData hm h1 h2 =>
    lit hm
    rcases hm with rfl | rfl <;> (obtain rfl := opfb_inj ho) <;>
      (unfold parseFB; farm; exact FailsIn.bind2 (Runs.mapErr (TypeIdx.runs h1)) (FailsIn.bind1 (ffail DataIdx.faults)))
  | aggElem hm h1 h2 =>
    lit hm
    rcases hm with rfl | rfl <;> (obtain rfl := opfb_inj ho) <;>
      (unfold parseFB; farm; exact FailsIn.bind2 (Runs.mapErr (TypeIdx.runs h1)) (FailsIn.bind1 (ffail ElemIdx.faults)))
  | copySource h1 h2 =>
    obtain rfl := opfb_inj ho
    unfold parseFB; farm; exact FailsIn.bind2 (Runs.mapErr (TypeIdx.runs h1)) (FailsIn.bind1 (ffail TypeIdx.faults))
  | heap hm h =>
    lit hm
    rcases hm with rfl | rfl | rfl | rfl | rfl
    · cases ho
    all_goals
      obtain rfl := opfb_inj ho
      unfold parseFB; farm; exact FailsIn.bind1 (ffail HeapType.faults)
  | castMissing hm =>
    lit hm
    rcases hm with rfl | rfl <;> (obtain rfl := opfb_inj ho) <;>
      (unfold parseFB; farm; exact FailsIn.bind1 (FailsIn.mapErr FailsIn.noByte))
  | castMarker hm h =>
    lit hm
    rcases hm with rfl | rfl <;> (obtain rfl := opfb_inj ho) <;>
      (unfold parseFB; farm; exact FailsIn.bind1 (FailsIn.mapErr (castop_failsIn h)))
  | castLabel hm h1 h2 =>
    lit hm
    rcases hm with rfl | rfl <;> (obtain rfl := opfb_inj ho) <;>
      (unfold parseFB; farm; exact FailsIn.bind2 (Runs.mapErr (castop_runs h1)) (FailsIn.bind1 (ffail LabelIdx.faults)))
  | castFrom hm h1 h2 h3 =>
    lit hm
    rcases hm with rfl | rfl <;> (obtain rfl := opfb_inj ho) <;>
      (unfold parseFB; farm; exact FailsIn.bind2 (Runs.mapErr (castop_runs h1))
        (FailsIn.bind2 (Runs.mapErr (LabelIdx.runs h2)) (FailsIn.bind1 (ffail HeapType.faults))))
  | castTo hm h1 h2 h3 h4 =>
    lit hm
    rcases hm with rfl | rfl <;> (obtain rfl := opfb_inj ho) <;>
      (unfold parseFB; farm; exact FailsIn.bind2 (Runs.mapErr (castop_runs h1))
        (FailsIn.bind2 (Runs.mapErr (LabelIdx.runs h2)) (FailsIn.bind2 (Runs.mapErr (HeapType.runs h3))
          (FailsIn.bind1 (ffail HeapType.faults)))))
  | _ => first | (cases ho; done) | (subst ho; simp_all; done)

theorem parseFC_failsIn {op : UInt32} {x : End} {bs : Bytes} {e : ParseError}
    (h : FImm x (.fc op.toNat) bs e) : FailsIn (R := R) (parseFC op) x bs e := by
  generalize ho : Opcode.fc op.toNat = o at h
  cases h with
  | @memLane _ _ p => cases p <;> cases ho
  | @memLaneLane _ _ _ _ p => cases p <;> cases ho
  | @lane _ _ p => cases p <;> cases ho
  | tab hm h =>
    lit hm
    rcases hm with rfl | rfl | rfl | rfl | rfl | rfl
    · cases ho
    · cases ho
    all_goals
      obtain rfl := opfc_inj ho
      unfold parseFC; farm; exact FailsIn.bind1 (ffail TableIdx.faults)
  | tabElem hm h =>
    lit hm
    rcases hm with rfl | rfl <;> (obtain rfl := opfc_inj ho) <;>
      (unfold parseFC; farm; exact FailsIn.bind1 (ffail ElemIdx.faults))
  | tabInit h1 h2 =>
    obtain rfl := opfc_inj ho
    unfold parseFC; farm; exact FailsIn.bind2 (Runs.mapErr (ElemIdx.runs h1)) (FailsIn.bind1 (ffail TableIdx.faults))
  | tabCopy h1 h2 =>
    obtain rfl := opfc_inj ho
    unfold parseFC; farm; exact FailsIn.bind2 (Runs.mapErr (TableIdx.runs h1)) (FailsIn.bind1 (ffail TableIdx.faults))
  | memory hm h =>
    lit hm
    rcases hm with rfl | rfl | rfl | rfl
    · cases ho
    · cases ho
    all_goals
      obtain rfl := opfc_inj ho
      unfold parseFC; farm; exact FailsIn.bind1 (ffail MemIdx.faults)
  | memData hm h =>
    lit hm
    rcases hm with rfl | rfl <;> (obtain rfl := opfc_inj ho) <;>
      (unfold parseFC; farm; exact FailsIn.bind1 (ffail DataIdx.faults))
  | memInit h1 h2 =>
    obtain rfl := opfc_inj ho
    unfold parseFC; farm; exact FailsIn.bind2 (Runs.mapErr (DataIdx.runs h1)) (FailsIn.bind1 (ffail MemIdx.faults))
  | memCopy h1 h2 =>
    obtain rfl := opfc_inj ho
    unfold parseFC; farm; exact FailsIn.bind2 (Runs.mapErr (MemIdx.runs h1)) (FailsIn.bind1 (ffail MemIdx.faults))
  | _ => first | (cases ho; done) | (subst ho; simp_all; done)

theorem parseFD_failsIn {op : UInt32} {x : End} {bs : Bytes} {e : ParseError}
    (h : FImm x (.fd op.toNat) bs e) : FailsIn (R := R) (parseFD op) x bs e := by
  generalize ho : Opcode.fd op.toNat = o at h
  cases h with
  | @memVec _ _ p n hp h =>
    rw [← ho] at hp
    obtain ⟨h1, h2⟩ := memFD_complete hp
    unfold parseFD
    refine FailsIn.ite_pos h2 ?_
    exact FailsIn.bind1 (ffail Memarg.faults)
  | @memLane _ _ p h =>
    obtain ⟨h1, h2⟩ := memLaneFD_complete ho.symm
    unfold parseFD
    refine FailsIn.ite_neg ?_ (FailsIn.ite_pos h2 (FailsIn.bind1 (ffail Memarg.faults)))
    simp only [UInt32.le_iff_toNat_le, ← UInt32.toNat_inj] at h2 ⊢; simp at h2 ⊢; omega
  | @memLaneLane _ _ _ _ p h1 h2 =>
    obtain ⟨h3, h4⟩ := memLaneFD_complete ho.symm
    unfold parseFD
    refine FailsIn.ite_neg ?_ (FailsIn.ite_pos h4 (FailsIn.bind2 (Runs.mapErr (Memarg.runs h1))
      (FailsIn.bind1 (ffail LaneIdx.faults))))
    simp only [UInt32.le_iff_toNat_le, ← UInt32.toNat_inj] at h4 ⊢; simp at h4 ⊢; omega
  | @lane _ _ p h =>
    obtain ⟨h1, h2⟩ := laneFD_complete ho.symm
    unfold parseFD
    refine FailsIn.ite_neg ?_ (FailsIn.ite_neg ?_ (FailsIn.ite_neg ?_ (FailsIn.ite_neg ?_
      (FailsIn.ite_pos h2 (FailsIn.bind1 (ffail LaneIdx.faults))))))
    all_goals (simp only [UInt32.le_iff_toNat_le, ← UInt32.toNat_inj] at h2 ⊢; simp at h2 ⊢; omega)
  | bytes hm h =>
    lit hm
    rcases hm with rfl | rfl <;> (obtain rfl := opfd_inj ho) <;>
      (unfold parseFD; farm; exact FailsIn.bind1 (FailsIn.bind1 (ffail bytes_faults)))
  | _ => first | (cases ho; done) | (subst ho; simp_all; done)

theorem parseSimple_byte_failsIn {op : UInt8} {x : End} {bs : Bytes} {e : ParseError}
    (h : FImm x (.byte op) bs e) : FailsIn (R := R) (parseSimple op) x bs e := by
  generalize ho : Opcode.byte op = o at h
  cases h with
  | @memLane _ _ p => cases p <;> cases ho
  | @memLaneLane _ _ _ _ p => cases p <;> cases ho
  | @lane _ _ p => cases p <;> cases ho
  | mem hp h =>
    cases ho
    obtain ⟨h1, h2⟩ := mem_complete hp
    have hne : ∀ c : UInt8, (c.toNat < 0x28 ∨ 0x3E < c.toNat) → op ≠ c := by
      rintro c hc rfl
      simp only [UInt8.le_iff_toNat_le] at h2
      simp at h2; omega
    unfold parseSimple
    repeat refine FailsIn.ite_neg (hne _ (by decide)) ?_
    refine FailsIn.ite_pos h2 ?_
    exact FailsIn.bind1 (ffail Memarg.faults)
  | tag h => cases ho; unfold parseSimple; farm; exact FailsIn.bind1 (ffail TagIdx.faults)
  | label hm h =>
    lit hm
    rcases hm with rfl | rfl | rfl | rfl <;> cases ho <;>
      (unfold parseSimple; farm; exact FailsIn.bind1 (ffail LabelIdx.faults))
  | labels h => cases ho; unfold parseSimple; farm; exact FailsIn.bind1 (ffail labels_faults)
  | lastLabel h1 h2 =>
    cases ho; unfold parseSimple; farm
    exact FailsIn.bind2 (Runs.mapErr (list_runs (fun _ _ => LabelIdx.runs) h1))
      (FailsIn.bind1 (ffail LabelIdx.faults))
  | func hm h =>
    lit hm
    rcases hm with rfl | rfl <;> cases ho <;>
      (unfold parseSimple; farm; exact FailsIn.bind1 (ffail FuncIdx.faults))
  | type hm h =>
    lit hm
    rcases hm with rfl | rfl | rfl | rfl <;> cases ho <;>
      (unfold parseSimple; farm; exact FailsIn.bind1 (ffail TypeIdx.faults))
  | table hm h1 h2 =>
    lit hm
    rcases hm with rfl | rfl <;> cases ho <;>
      (unfold parseSimple; farm; exact FailsIn.bind2 (Runs.mapErr (TypeIdx.runs h1))
        (FailsIn.bind1 (ffail TableIdx.faults)))
  | heap hm h =>
    lit hm
    rcases hm with rfl | rfl | rfl | rfl | rfl <;> cases ho
    unfold parseSimple; farm; exact FailsIn.bind1 (ffail HeapType.faults)
  | refFunc h => cases ho; unfold parseSimple; farm; exact FailsIn.bind1 (ffail FuncIdx.faults)
  | types h => cases ho; unfold parseSimple; farm; exact FailsIn.bind1 (ffail valTypes_faults)
  | «local» hm h =>
    lit hm
    rcases hm with rfl | rfl | rfl <;> cases ho <;>
      (unfold parseSimple; farm; exact FailsIn.bind1 (ffail LocalIdx.faults))
  | «global» hm h =>
    lit hm
    rcases hm with rfl | rfl <;> cases ho <;>
      (unfold parseSimple; farm; exact FailsIn.bind1 (ffail GlobalIdx.faults))
  | tab hm h =>
    lit hm
    rcases hm with rfl | rfl | rfl | rfl | rfl | rfl <;> cases ho <;>
      (unfold parseSimple; farm; exact FailsIn.bind1 (ffail TableIdx.faults))
  | memory hm h =>
    lit hm
    rcases hm with rfl | rfl | rfl | rfl <;> cases ho <;>
      (unfold parseSimple; farm; exact FailsIn.bind1 (ffail MemIdx.faults))
  | i32 h => cases ho; unfold parseSimple; farm; exact FailsIn.bind1 (ffail i32_faults)
  | i64 h => cases ho; unfold parseSimple; farm; exact FailsIn.bind1 (ffail i64_faults)
  | f32 h => cases ho; unfold parseSimple; farm; exact FailsIn.bind1 (ffail f32_faults)
  | f64 h => cases ho; unfold parseSimple; farm; exact FailsIn.bind1 (ffail f64_faults)
  | _ => first | (cases ho; done) | (subst ho; simp_all; done)

/-- No instruction with immediates has one of the other opcodes. -/
theorem FImm.byte_ne {op : UInt8} {x : End} {bs : Bytes} {e : ParseError} (h : FImm x (.byte op) bs e) :
    op ∉ [0x0B, 0x05, 0x02, 0x03, 0x04, 0x1F] := by
  intro hb
  simp only [List.mem_cons, List.not_mem_nil, or_false] at hb
  generalize ho : Opcode.byte op = o at h
  cases h with
  | @memLane _ _ p => cases p <;> cases ho
  | @memLaneLane _ _ _ _ p => cases p <;> cases ho
  | @lane _ _ p => cases p <;> cases ho
  | mem hp h =>
    cases ho
    obtain ⟨h1, h2⟩ := mem_complete hp
    rcases hb with rfl | rfl | rfl | rfl | rfl | rfl <;> revert h2 <;> decide
  | _ => first
    | (cases ho; done)
    | (cases ho; simp at hb; done)
    | (rcases hb with rfl | rfl | rfl | rfl | rfl | rfl <;> subst ho <;> simp_all; done)

/-- A failure of a leaf instruction is a failure of `parse`. -/
theorem parse_simple_failsIn {op : UInt8} {x : End} {bs : Bytes} {e : ParseError}
    (hop : op ∉ [0x0B, 0x05, 0x02, 0x03, 0x04, 0x1F]) (hf : FailsIn (R := R) (parseSimple op) x bs e) (n : Nat)
    (hn : 0 < n) : FailsIn (R := R) (parse n) x (op :: bs) e := by
  match n, hn with
  | n + 1, _ =>
    simp only [List.mem_cons, List.not_mem_nil, or_false, not_or] at hop
    refine FailsIn.bind2 (b1 := [op]) (b2 := bs) (Runs.mapErr (Runs.readExact rfl)) ?_
    refine FailsIn.ite_neg hop.1 (FailsIn.ite_neg hop.2.1 (FailsIn.ite_neg ?_ (FailsIn.ite_neg hop.2.2.2.2.2
      (FailsIn.bind1 hf))))
    rintro ⟨h1, h2⟩
    simp only [UInt8.le_iff_toNat_le, ← UInt8.toNat_inj] at h1 h2 hop
    simp at h1 h2 hop
    omega

end Wadec
