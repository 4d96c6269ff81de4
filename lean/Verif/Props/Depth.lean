import Verif.Props.Resources
import Verif.Props.Robust
import Verif.Proof.Depth
import Verif.Proof.DepthOnly
import Verif.Proof.Nesting
import Verif.Proof.OpensModule

/-! C66, C72: how deeply the decoder of instructions and the search for data indices call themselves. -/

namespace Wadec

open LawfulRead Spec

section
variable {R : Type} [LawfulRead R]

/-- C66 (what the limit is): with room for `d` nested calls of `Instruction::parse` and, later, of
`instruction_contains_data_index` decoding goes as without a limit, unless the room runs out. -/
theorem c66_limit (d : Nat) (r : R) :
    decodeModuleWithin d r = decodeModule r ∨ (decodeModuleWithin d r).1 = .fuel :=
  module_under r

/-- C66: reading an expression from fewer than `2 * d` bytes, valid or not, neither `Instruction::parse` nor
`instruction_contains_data_index` is ever active more than `d` times at once: a call stack with room for
`d` calls makes no difference. -/
theorem c66_expr (d : Nat) (r : R) (h : (avail r).length < 2 * d) : decodeExprWithin d r = decodeExpr r :=
  (expr_within r h).symm

/-- C66: and the same for a whole module. -/
theorem c66_module (d : Nat) (r : R) (h : (avail r).length < 2 * d) : decodeModuleWithin d r = decodeModule r :=
  (module_within r h).symm

/-! ### Less is not enough -/

variable {ε ε' α β : Type}

theorem Sticks.listLoop {σ : Type} {f : σ → Dec R ε (α × σ)} {bs : Bytes} {st : σ} {n : Nat} {i : UInt32} {items : List α}
    (h : Sticks (f st) bs) : Sticks (decodeListLoop f (n + 1) i st items) bs := by
  rw [decodeListLoop]
  exact Sticks.bind h.mapErr

theorem Sticks.list {f : Dec R ε α} {b bs : Bytes} {n : UInt32} (hb : BU32 b n) (hn : n ≠ 0) (h : Sticks f bs) :
    Sticks (decodeList f) (b ++ bs) := by
  refine Sticks.bind ?_
  refine Sticks.after (Runs.mapErr (decodeU32_runs hb)) ?_
  refine Sticks.after (b1 := []) Runs.reserve ?_
  have : n.toNat ≠ 0 := fun h => hn (by rwa [← UInt32.toNat_inj])
  obtain ⟨k, hk⟩ := Nat.exists_eq_succ_of_ne_zero this
  rw [hk]
  exact Sticks.listLoop (f := fun _ => _) (Sticks.bind h)

theorem parse_sticks : ∀ d n, Sticks (R := R) (parseWithin d n) (opens d)
  | 0, _ => by rw [parseWithin]; exact Sticks.none
  | _ + 1, 0 => by rw [parseWithin]; exact Sticks.none
  | d + 1, n + 1 => by
    have e : opens (d + 1) = [0x02] ++ ([0x40] ++ opens d) := by simp [opens, List.replicate_succ]
    rw [parseWithin, e]
    refine Sticks.after (Runs.mapErr (Runs.readExact rfl)) ?_
    simp only [show ¬ (0x02 : UInt8) = 0x0B by decide, show ¬ (0x02 : UInt8) = 0x05 by decide,
      show (0x02 : UInt8) ≤ 0x02 ∧ (0x02 : UInt8) ≤ 0x04 by decide, if_true, if_false, and_self]
    refine Sticks.after (Runs.mapErr (BlockType.runs .empty)) ?_
    refine Sticks.bind ?_
    cases n with
    | zero => exact Sticks.none
    | succ n =>
      rw [parseSeq]
      exact Sticks.bind (parse_sticks d (n + 1))

theorem expr_sticks (d : Nat) : Sticks (R := R) (decodeExprWithin d) (opens d) := by
  intro r rest ha
  simp only [decodeExprWithin]
  rw [decodeExprLoopWithin]
  exact Sticks.bind (Sticks.mapErr (parse_sticks d _)) r rest ha

theorem expr_done (r : R) : (decodeExpr r).1 ≠ .fuel := by
  have h := expr_g (S := R) r r (Nat.le_refl _) (List.prefix_refl _)
  generalize decodeExpr r = o at h
  obtain ⟨res, r1⟩ := o
  cases res with
  | fuel => exact h.elim
  | _ => simp

/-- C66: that is the best possible bound: after the `2 * d` bytes of `d` nested blocks the next call
of `Instruction::parse`, made whatever comes next, is the `d + 1`-st one active. -/
theorem c66_expr_needed (d : Nat) (r : R) (rest : Bytes) (h : avail r = opens d ++ rest) :
    (decodeExprWithin d r).1 = .fuel ∧ (decodeExprWithin d r).1 ≠ (decodeExpr r).1 := by
  have h1 := expr_sticks d r rest h
  exact ⟨h1, fun e => by rw [h1] at e; exact expr_done r e.symm⟩

/-- A code section that breaks off after `d` nested blocks: 2 * d + 21 bytes. -/
def brokenOff (d : Nat) : Bytes :=
  preamble ++ ([0x0A] ++ (uEnc 5 (2 * d + 7) ++ ([0x01] ++ (uEnc 5 (2 * d + 1) ++ ([0x00] ++ opens d)))))

/-- C66: in a module, too: these 2 * d + 21 bytes need more than `d` nested calls. -/
theorem c66_module_needed (d : Nat) (hd : 2 * d + 7 < 2 ^ 32) :
    (brokenOff d).length = 2 * d + 21 ∧
    ∀ (r : R) (rest : Bytes), avail r = brokenOff d ++ rest →
      (decodeModuleWithin d r).1 = .fuel ∧ (decodeModuleWithin d r).1 ≠ (decodeModule r).1 := by
  have hl := five_length
  have ho := opens_length d
  refine ⟨by simp [brokenOff, hl, ho, preamble]; omega, ?_⟩
  have h7 : (UInt32.ofNat (2 * d + 7)).toNat = 2 * d + 7 := by simp; omega
  have h1 : (UInt32.ofNat (2 * d + 1)).toNat = 2 * d + 1 := by simp; omega
  have b7 : BU32 (uEnc 5 (2 * d + 7)) (UInt32.ofNat (2 * d + 7)) := by
    have := five (UInt32.ofNat (2 * d + 7)); rwa [h7] at this
  have b1 : BU32 (uEnc 5 (2 * d + 1)) (UInt32.ofNat (2 * d + 1)) := by
    have := five (UInt32.ofNat (2 * d + 1)); rwa [h1] at this
  have hbody : ∀ {R : Type} [LawfulRead R], Sticks (R := R) (parseCodeBodyWithin d) ([0x00] ++ opens d) := by
    intro R _
    refine Sticks.after (v := ([], 0)) (Runs.mapErr ?_) (Sticks.bind (Sticks.mapErr (expr_sticks d)))
    exact listS_runs (P := LocalStep) (b1 := [0x00]) (b2 := []) (fun st b x st' => codeLocal_runs st b x st') (by simp)
      ((c07_u32 0 _).2 ⟨1, by decide⟩) .nil
  have hcode : ∀ {R : Type} [LawfulRead R],
      Sticks (R := R) (parseCodeWithin d) (uEnc 5 (2 * d + 1) ++ ([0x00] ++ opens d)) := by
    intro R _
    refine Sticks.after (Runs.mapErr (decodeU32_runs b1)) (Sticks.bind (Sticks.withTake hbody ?_))
    rw [h1]; simp [ho]
  have hsec : Sticks (R := R) (decodeSectionWithin d ⟨.Code, UInt32.ofNat (2 * d + 7)⟩ ⟨Module.default, false, false⟩)
      ([0x01] ++ (uEnc 5 (2 * d + 1) ++ ([0x00] ++ opens d))) := by
    refine Sticks.after (b1 := []) (v := ()) Runs.pure (Sticks.bind (Sticks.withTake ?_ ?_))
    · exact Sticks.bind (Sticks.mapErr (Sticks.mapErr (Sticks.list (b := [0x01]) ((c07_u32 1 _).2 ⟨1, by decide⟩) (by decide) hcode)))
    · simp only [h7]; simp [ho, hl]; omega
  have hhead : Runs (R := R) decodeSectionHeader ([0x0A] ++ uEnc 5 (2 * d + 7))
      (some ⟨.Code, UInt32.ofNat (2 * d + 7)⟩) := by
    intro r rest ha
    obtain ⟨r1, a1, e1⟩ := header_cons (r := r) ha
    have av : avail r1 = uEnc 5 (2 * d + 7) ++ rest := by
      have := adv_avail a1
      rw [ha] at this
      simpa using this.symm
    obtain ⟨r2, e2, a2⟩ := headerRest_runs (R := R) (k := .Code) b7 r1 _ av
    exact ⟨r2, e1.trans e2, adv_trans a1 a2⟩
  intro r rest ha
  have key : (decodeModuleWithin d r).1 = .fuel := by
    simp only [decodeModuleWithin]
    refine Sticks.after (b1 := preamble) (Runs.mapErr preamble_runs) (Sticks.bind ?_) r rest ha
    rw [sectionLoopWithin, ← List.append_assoc]
    exact Sticks.after (Runs.mapErr hhead) (Sticks.bind hsec)
  exact ⟨key, fun e => by rw [key] at e; exact c30_terminates r e.symm⟩

/-! ### C72: exactly the nesting -/

/-- C72: an expression that is accepted needs one call of `Instruction::parse`, or later of
`instruction_contains_data_index`, on the stack for itself and one
for every level of nesting: with that much room the result is the same, with less there is none. -/
theorem c72_expr (d : Nat) {r r' : R} {e : Expr} {b : Bool} (h : decodeExpr r = (.ok (e, b), r')) :
    (depthInstrs e < d → decodeExprWithin d r = (.ok (e, b), r')) ∧
    (¬ depthInstrs e < d → (decodeExprWithin d r).1 = .fuel) := by
  refine ⟨fun hd => (expr_fits _ _ _).2 ⟨h, hd⟩, fun hd => ?_⟩
  rcases expr_under (d := d) r with hu | hu
  · rw [h] at hu
    exact absurd ((expr_fits _ _ _).1 hu).2 hd
  · exact hu

/-- C72: and so for a module, whichever sections its expressions are in. -/
theorem c72_module (d : Nat) (hd : 0 < d) {r r' : R} {m : Module} (h : decodeModule r = (.ok m, r')) :
    (depthModule m < d → decodeModuleWithin d r = (.ok m, r')) ∧
    (¬ depthModule m < d → (decodeModuleWithin d r).1 = .fuel) := by
  refine ⟨fun hm => (module_fits hd _ _ _).2 ⟨h, hm⟩, fun hm => ?_⟩
  rcases module_under (d := d) r with hu | hu
  · rw [h] at hu
    exact absurd ((module_fits hd _ _ _).1 hu).2 hm
  · exact hu

/-- C72: whether or not an expression is accepted: room for `d` calls is too little exactly for inputs that start by
leading into `d` constructs, one inside the other, and on all others the result is the one without limit. -/
theorem c72_expr_any (d : Nat) (r : R) :
    ((decodeExprWithin d r).1 = .fuel ↔ ∃ bs rest, avail r = bs ++ rest ∧ Opens d bs) ∧
    ((¬ ∃ bs rest, avail r = bs ++ rest ∧ Opens d bs) → decodeExprWithin d r = decodeExpr r) := by
  have h : (decodeExprWithin d r).1 = .fuel ↔ ∃ bs rest, avail r = bs ++ rest ∧ Opens d bs :=
    ⟨expr_stuck, fun ⟨bs, rest, ha, hb⟩ => expr_opens hb r rest ha⟩
  exact ⟨h, fun hn => (expr_under (d := d) r).resolve_right fun hf => hn (h.1 hf)⟩

/-- C72: and for a module, accepted or not: room for `d` calls is too little exactly for inputs that lead, through whole
sections and whole entries, to an expression of a table, global, element segment, function or data segment that starts
by leading into `d` constructs, one inside the other; on all others the result is the one without limit. -/
theorem c72_module_any (d : Nat) (r : R) :
    ((decodeModuleWithin d r).1 = .fuel ↔ InModule (fun x => ∃ bs rest, x = bs ++ rest ∧ Opens d bs) (avail r)) ∧
    ((¬ InModule (fun x => ∃ bs rest, x = bs ++ rest ∧ Opens d bs) (avail r)) → decodeModuleWithin d r = decodeModule r) :=
  ⟨module_exactly r, fun hn => (module_under (d := d) r).resolve_right fun hf => hn ((module_exactly r).1 hf)⟩

/-- C72: the search for data indices, made for every instruction of an expression when it has been decoded, stays within
the room that decoding it took. -/
theorem c72_search (d : Nat) (i : Instr) (h : depthInstr i < d) : containsDataIdxWithin d i = some (containsDataIdx i) :=
  contains_within d i h

/-- An instruction inside `n` blocks. -/
def inBlocks (i : Instr) : Nat → Instr
  | 0 => i
  | n + 1 => .Block .Empty [inBlocks i n]

/-- C72: and it needs this room: the search gets to see an instruction in `n` blocks in the `n + 1`-st nested call. -/
theorem c72_search_needed (i : Instr) : ∀ n, containsDataIdxWithin n (inBlocks i n) = none
  | 0 => by rw [containsDataIdxWithin]
  | n + 1 => by
    simp only [inBlocks, containsDataIdxWithin, anyContainsDataIdxWithin, c72_search_needed i n]

end

/-- Three bytes: `block`, `block type`, `end` missing: two calls are enough, one is not. -/
example : decodeExprWithin 2 (Src.ofBytes [0x02, 0x40, 0x0B]) = decodeExpr (Src.ofBytes [0x02, 0x40, 0x0B]) :=
  c66_expr 2 _ (by rw [avail_ofBytes]; decide)

example : (decodeExprWithin 1 (Src.ofBytes [0x02, 0x40, 0x0B])).1 = .fuel :=
  (c66_expr_needed 1 _ [0x0B] (avail_ofBytes _)).1

/-- Blocks one after the other need no more than blocks on their own. -/
example : (match decodeExprWithin 2 (Src.ofBytes [0x02, 0x40, 0x0B, 0x02, 0x40, 0x0B, 0x02, 0x40, 0x0B, 0x0B]) with
    | (.ok (e, _), _) => e.length
    | _ => 0) = 3 := by decide +kernel

theorem nop_bytes : BInstr [0x01] (.plain .Nop) := .leaf (b := [0x01]) .byte (.plain (op := .Nop))

/-- `nop`, then `if` with a first branch, `else`, then `loop`, then an opcode that does not exist: two calls are too few. -/
example : (decodeExprWithin 2 (Src.ofBytes [0x01, 0x04, 0x40, 0x01, 0x05, 0x03, 0x40, 0xFF])).1 = .fuel :=
  (c72_expr_any 2 _).1.2 ⟨[0x01, 0x04, 0x40, 0x01, 0x05, 0x03, 0x40], [0xFF], avail_ofBytes _,
    .enter (pre := [0x01]) (o := [0x04, 0x40, 0x01, 0x05]) (.cons (b := [0x01]) (bs := []) nop_bytes .nil)
      (.else (b := [0x40]) (b2 := [0x01]) .empty (.cons (b := [0x01]) (bs := []) nop_bytes .nil))
      (.enter (pre := []) (o := [0x03, 0x40]) .nil (.loop .empty) .here)⟩

/-- Two are enough for finding a wrong opcode in one block. -/
example : ¬ ∃ bs rest, avail (Src.ofBytes [0x02, 0x40, 0xFF]) = bs ++ rest ∧ Opens 2 bs := by
  intro h
  have hf := (c72_expr_any 2 _).1.2 h
  have hn : (match (decodeExprWithin 2 (Src.ofBytes [0x02, 0x40, 0xFF])).1 with | .fuel => true | _ => false) = false := by
    decide +kernel
  rw [hf] at hn
  cases hn

/-- C72: the second function of a code section breaks off behind `block` in `if`, after an empty one. -/
def brokenCode : Bytes :=
  preamble ++ [0x03, 0x03, 0x02, 0x00, 0x00, 0x0A, 0x20, 0x02, 0x02, 0x00, 0x0B, 0x1B, 0x01, 0x05, 0x7F, 0x04, 0x40, 0x02, 0x40]

theorem brokenCode_in : InModule (fun x => ∃ bs rest, x = bs ++ rest ∧ Opens 2 bs) brokenCode := by
  have u0 : BU32 [0x00] 0 := (c07_u32 0 _).2 ⟨1, by decide⟩
  have u1 : BU32 [0x01] 1 := (c07_u32 1 _).2 ⟨1, by decide⟩
  have u2 : BU32 [0x02] 2 := (c07_u32 2 _).2 ⟨1, by decide⟩
  have hf : BSection [0x03, 0x03, 0x02, 0x00, 0x00] (3, .function [⟨0⟩, ⟨0⟩]) :=
    .mk (b1 := [0x03]) (b2 := [0x02, 0x00, 0x00]) (s := .function [⟨0⟩, ⟨0⟩]) ((c07_u32 3 _).2 ⟨1, by decide⟩) rfl
      (.function (.mk (b := [0x02]) (bs := [0x00, 0x00]) u2
        (.cons (b := [0x00]) (bs := [0x00]) u0 (.cons (b := [0x00]) (bs := []) u0 .nil))))
  have hc : IsEntry .Code [0x02, 0x00, 0x0B] :=
    ⟨⟨localsOf [], []⟩, .mk (b1 := [0x02]) (b2 := [0x00, 0x0B]) u2
      (.mk (b1 := [0x00]) (b2 := [0x0B]) (.mk (b := [0x00]) (bs := []) u0 .nil) (.mk (bs := []) .nil) (by decide))⟩
  refine ⟨[.function [⟨0⟩, ⟨0⟩]], .Code, 32, [0x02, 0x02, 0x00, 0x0B, 0x1B, 0x01, 0x05, 0x7F, 0x04, 0x40, 0x02, 0x40],
    AtSection.mk (bs := [0x03, 0x03, 0x02, 0x00, 0x00]) (b1 := [0x20]) (secs := [(3, .function [⟨0⟩, ⟨0⟩])]) (k := .Code)
      (rest := [0x02, 0x02, 0x00, 0x0B, 0x1B, 0x01, 0x05, 0x7F, 0x04, 0x40, 0x02, 0x40])
      (.cons (b := [0x03, 0x03, 0x02, 0x00, 0x00]) (bs := []) hf .nil) ⟨by decide, by simp [Section.kind], by simp [Section.kind]⟩
      ((c07_u32 32 _).2 ⟨1, by decide⟩),
    by unfold MayFollow; decide, ?_⟩
  refine ⟨[0x02], 2, _, rfl, u2, [0x02, 0x00, 0x0B], 1, [0x1B, 0x01, 0x05, 0x7F, 0x04, 0x40, 0x02, 0x40], rfl,
    .cons (b := [0x02, 0x00, 0x0B]) (bs := []) hc .nil, by decide, ?_⟩
  refine ⟨[0x1B], 27, [0x01, 0x05, 0x7F, 0x04, 0x40, 0x02, 0x40], rfl, (c07_u32 27 _).2 ⟨1, by decide⟩, ?_⟩
  refine ⟨[0x01, 0x05, 0x7F], [(5, .Num .Int32)], [0x04, 0x40, 0x02, 0x40], rfl, ?_, ?_, [0x04, 0x40, 0x02, 0x40], [], rfl, ?_⟩
  · exact .mk (b := [0x01]) (bs := [0x05, 0x7F]) u1 (.cons (b := [0x05, 0x7F]) (bs := [])
      (.mk (b1 := [0x05]) (b2 := [0x7F]) ((c07_u32 5 _).2 ⟨1, by decide⟩) BValType.i32) .nil)
  · decide
  · exact .enter (pre := []) (o := [0x04, 0x40]) .nil (.then .empty)
      (.enter (pre := []) (o := [0x02, 0x40]) .nil (.block .empty) .here)

/-- Two calls are not enough for it. -/
example : (decodeModuleWithin 2 (Src.ofBytes brokenCode)).1 = .fuel :=
  (c72_module_any 2 _).1.2 (by rw [avail_ofBytes]; exact brokenCode_in)

/-- C72: `block (block end) end` in the offset of a data segment (the first byte of which is its mode): three calls
are enough, two are not. -/
def deepOffset : Bytes := preamble ++ [0x0B, 0x0A, 0x01, 0x00, 0x02, 0x40, 0x02, 0x40, 0x0B, 0x0B, 0x0B, 0x00]

/-- The depth of the module, if there is one. -/
def depthOf : Res DecodeModuleError Module × Src → Nat
  | (.ok m, _) => depthModule m
  | _ => 0

theorem depthOf_pos : ∀ (o : Res DecodeModuleError Module × Src) (n : Nat), depthOf o = n + 1 →
    ∃ m r', o = (.ok m, r') ∧ depthModule m = n + 1
  | (.ok m, r'), _, h => ⟨m, r', rfl, h⟩
  | (.err _, _), _, h => by cases h
  | (.panic, _), _, h => by cases h
  | (.fuel, _), _, h => by cases h

theorem deepOffset_ok : ∃ m r', decodeModule (Src.ofBytes deepOffset) = (.ok m, r') ∧ depthModule m = 2 :=
  depthOf_pos _ 1 (by decide +kernel)

example : decodeModuleWithin 3 (Src.ofBytes deepOffset) = decodeModule (Src.ofBytes deepOffset) := by
  obtain ⟨m, r', h, hm⟩ := deepOffset_ok
  rw [h]
  exact (c72_module 3 (by decide) h).1 (by rw [hm]; decide)

example : (decodeModuleWithin 2 (Src.ofBytes deepOffset)).1 = .fuel := by
  obtain ⟨m, r', h, hm⟩ := deepOffset_ok
  exact (c72_module 2 (by decide) h).2 (by rw [hm]; decide)

example : depthInstr (inBlocks (.DataDrop ⟨0⟩) 3) < 4 ∧ containsDataIdxWithin 4 (inBlocks (.DataDrop ⟨0⟩) 3) = some true ∧
    containsDataIdxWithin 3 (inBlocks (.DataDrop ⟨0⟩) 3) = none :=
  ⟨by decide, c72_search 4 _ (by decide), c72_search_needed _ 3⟩

end Wadec
