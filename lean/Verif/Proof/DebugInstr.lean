import Verif.Proof.DebugNames

/-! Generated by tools/gen_tells_instr.py: the `Debug` trees of instructions are well formed and determine the
instructions up to the payloads of NaNs. -/

namespace Wadec

open Spec

variable {T : StdText}

theorem lanes_inj {a b : Bytes16} (h : T.Ok)
    (e : dbg T (a.val.map LaneIdx.mk) = dbg T (b.val.map LaneIdx.mk)) : a = b := by
  have e := Tells.inj h e
  exact Subtype.ext (map_inj' (fun x _ y _ h => by injection h) e)

theorem f32_same (h : T.Ok) {x y : UInt32} (e : T.f32 x = T.f32 y) : oneNaN32 x = oneNaN32 y := by
  rcases (h.f32_same x y).1 e with e | ⟨e, e'⟩
  · rw [e]
  · simp only [oneNaN32, e, e', if_true]

theorem f64_same (h : T.Ok) {x y : UInt64} (e : T.f64 x = T.f64 y) : oneNaN64 x = oneNaN64 y := by
  rcases (h.f64_same x y).1 e with e | ⟨e, e'⟩
  · rw [e]
  · simp only [oneNaN64, e, e', if_true]

mutual
theorem instr_ok (h : T.Ok) : ∀ i : Instr, (i.dbg T).Ok
  | .plain op => by simp only [Instr.dbg]; exact ok_word (allNames_word op.text_get)
  | .mem op _ => by
    simp only [Instr.dbg]; exact ok_tuple (allNames_word op.text_get) (okI_cons (Tells.ok h _) okI_nil)
  | .memLane op _ _ => by
    simp only [Instr.dbg]
    exact ok_tuple (allNames_word op.text_get) (okI_cons (Tells.ok h _) (okI_cons (Tells.ok h _) okI_nil))
  | .lane op _ => by
    simp only [Instr.dbg]; exact ok_tuple (allNames_word op.text_get) (okI_cons (Tells.ok h _) okI_nil)
  | .Block _ body => by
    simp only [Instr.dbg]
    exact ok_tuple rfl (okI_cons (Tells.ok h _) (okI_cons (ok_list (instrs_ok h body)) okI_nil))
  | .Loop _ body => by
    simp only [Instr.dbg]
    exact ok_tuple rfl (okI_cons (Tells.ok h _) (okI_cons (ok_list (instrs_ok h body)) okI_nil))
  | .If _ thenBody elseBody => by
    simp only [Instr.dbg]
    exact ok_tuple rfl (okI_cons (Tells.ok h _) (okI_cons (ok_list (instrs_ok h thenBody)) (okI_cons (instrsOpt_ok h elseBody) okI_nil)))
  | .Br _ => by
    simp only [Instr.dbg]
    exact ok_tuple rfl (okI_cons (Tells.ok h _) okI_nil)
  | .BrIf _ => by
    simp only [Instr.dbg]
    exact ok_tuple rfl (okI_cons (Tells.ok h _) okI_nil)
  | .BrTable _ _ => by
    simp only [Instr.dbg]
    exact ok_tuple rfl (okI_cons (Tells.ok h _) (okI_cons (Tells.ok h _) okI_nil))
  | .BrOnNull _ => by
    simp only [Instr.dbg]
    exact ok_tuple rfl (okI_cons (Tells.ok h _) okI_nil)
  | .BrOnNonNull _ => by
    simp only [Instr.dbg]
    exact ok_tuple rfl (okI_cons (Tells.ok h _) okI_nil)
  | .BrOnCast _ _ _ => by
    simp only [Instr.dbg]
    exact ok_tuple rfl (okI_cons (Tells.ok h _) (okI_cons (Tells.ok h _) (okI_cons (Tells.ok h _) okI_nil)))
  | .BrOnCastFail _ _ _ => by
    simp only [Instr.dbg]
    exact ok_tuple rfl (okI_cons (Tells.ok h _) (okI_cons (Tells.ok h _) (okI_cons (Tells.ok h _) okI_nil)))
  | .Call _ => by
    simp only [Instr.dbg]
    exact ok_tuple rfl (okI_cons (Tells.ok h _) okI_nil)
  | .CallRef _ => by
    simp only [Instr.dbg]
    exact ok_tuple rfl (okI_cons (Tells.ok h _) okI_nil)
  | .CallIndirect _ _ => by
    simp only [Instr.dbg]
    exact ok_tuple rfl (okI_cons (Tells.ok h _) (okI_cons (Tells.ok h _) okI_nil))
  | .ReturnCall _ => by
    simp only [Instr.dbg]
    exact ok_tuple rfl (okI_cons (Tells.ok h _) okI_nil)
  | .ReturnCallRef _ => by
    simp only [Instr.dbg]
    exact ok_tuple rfl (okI_cons (Tells.ok h _) okI_nil)
  | .ReturnCallIndirect _ _ => by
    simp only [Instr.dbg]
    exact ok_tuple rfl (okI_cons (Tells.ok h _) (okI_cons (Tells.ok h _) okI_nil))
  | .Throw _ => by
    simp only [Instr.dbg]
    exact ok_tuple rfl (okI_cons (Tells.ok h _) okI_nil)
  | .TryTable _ _ body => by
    simp only [Instr.dbg]
    exact ok_tuple rfl (okI_cons (Tells.ok h _) (okI_cons (Tells.ok h _) (okI_cons (ok_list (instrs_ok h body)) okI_nil)))
  | .RefFunc _ => by
    simp only [Instr.dbg]
    exact ok_tuple rfl (okI_cons (Tells.ok h _) okI_nil)
  | .RefNull _ => by
    simp only [Instr.dbg]
    exact ok_tuple rfl (okI_cons (Tells.ok h _) okI_nil)
  | .RefTest _ => by
    simp only [Instr.dbg]
    exact ok_tuple rfl (okI_cons (Tells.ok h _) okI_nil)
  | .RefCast _ => by
    simp only [Instr.dbg]
    exact ok_tuple rfl (okI_cons (Tells.ok h _) okI_nil)
  | .StructNew _ => by
    simp only [Instr.dbg]
    exact ok_tuple rfl (okI_cons (Tells.ok h _) okI_nil)
  | .StructNewDefault _ => by
    simp only [Instr.dbg]
    exact ok_tuple rfl (okI_cons (Tells.ok h _) okI_nil)
  | .StructGet _ _ => by
    simp only [Instr.dbg]
    exact ok_tuple rfl (okI_cons (Tells.ok h _) (okI_cons (Tells.ok h _) okI_nil))
  | .StructGetS _ _ => by
    simp only [Instr.dbg]
    exact ok_tuple rfl (okI_cons (Tells.ok h _) (okI_cons (Tells.ok h _) okI_nil))
  | .StructGetU _ _ => by
    simp only [Instr.dbg]
    exact ok_tuple rfl (okI_cons (Tells.ok h _) (okI_cons (Tells.ok h _) okI_nil))
  | .StructSet _ _ => by
    simp only [Instr.dbg]
    exact ok_tuple rfl (okI_cons (Tells.ok h _) (okI_cons (Tells.ok h _) okI_nil))
  | .ArrayNew _ => by
    simp only [Instr.dbg]
    exact ok_tuple rfl (okI_cons (Tells.ok h _) okI_nil)
  | .ArrayNewDefault _ => by
    simp only [Instr.dbg]
    exact ok_tuple rfl (okI_cons (Tells.ok h _) okI_nil)
  | .ArrayNewFixed _ _ => by
    simp only [Instr.dbg]
    exact ok_tuple rfl (okI_cons (Tells.ok h _) (okI_cons (Tells.ok h _) okI_nil))
  | .ArrayNewData _ _ => by
    simp only [Instr.dbg]
    exact ok_tuple rfl (okI_cons (Tells.ok h _) (okI_cons (Tells.ok h _) okI_nil))
  | .ArrayNewElem _ _ => by
    simp only [Instr.dbg]
    exact ok_tuple rfl (okI_cons (Tells.ok h _) (okI_cons (Tells.ok h _) okI_nil))
  | .ArrayGet _ => by
    simp only [Instr.dbg]
    exact ok_tuple rfl (okI_cons (Tells.ok h _) okI_nil)
  | .ArrayGetS _ => by
    simp only [Instr.dbg]
    exact ok_tuple rfl (okI_cons (Tells.ok h _) okI_nil)
  | .ArrayGetU _ => by
    simp only [Instr.dbg]
    exact ok_tuple rfl (okI_cons (Tells.ok h _) okI_nil)
  | .ArraySet _ => by
    simp only [Instr.dbg]
    exact ok_tuple rfl (okI_cons (Tells.ok h _) okI_nil)
  | .ArrayFill _ => by
    simp only [Instr.dbg]
    exact ok_tuple rfl (okI_cons (Tells.ok h _) okI_nil)
  | .ArrayCopy _ _ => by
    simp only [Instr.dbg]
    exact ok_tuple rfl (okI_cons (Tells.ok h _) (okI_cons (Tells.ok h _) okI_nil))
  | .ArrayInitData _ _ => by
    simp only [Instr.dbg]
    exact ok_tuple rfl (okI_cons (Tells.ok h _) (okI_cons (Tells.ok h _) okI_nil))
  | .ArrayInitElem _ _ => by
    simp only [Instr.dbg]
    exact ok_tuple rfl (okI_cons (Tells.ok h _) (okI_cons (Tells.ok h _) okI_nil))
  | .Select _ => by
    simp only [Instr.dbg]
    exact ok_tuple rfl (okI_cons (Tells.ok h _) okI_nil)
  | .LocalGet _ => by
    simp only [Instr.dbg]
    exact ok_tuple rfl (okI_cons (Tells.ok h _) okI_nil)
  | .LocalSet _ => by
    simp only [Instr.dbg]
    exact ok_tuple rfl (okI_cons (Tells.ok h _) okI_nil)
  | .LocalTee _ => by
    simp only [Instr.dbg]
    exact ok_tuple rfl (okI_cons (Tells.ok h _) okI_nil)
  | .GlobalGet _ => by
    simp only [Instr.dbg]
    exact ok_tuple rfl (okI_cons (Tells.ok h _) okI_nil)
  | .GlobalSet _ => by
    simp only [Instr.dbg]
    exact ok_tuple rfl (okI_cons (Tells.ok h _) okI_nil)
  | .TableGet _ => by
    simp only [Instr.dbg]
    exact ok_tuple rfl (okI_cons (Tells.ok h _) okI_nil)
  | .TableSet _ => by
    simp only [Instr.dbg]
    exact ok_tuple rfl (okI_cons (Tells.ok h _) okI_nil)
  | .TableInit _ _ => by
    simp only [Instr.dbg]
    exact ok_tuple rfl (okI_cons (Tells.ok h _) (okI_cons (Tells.ok h _) okI_nil))
  | .ElemDrop _ => by
    simp only [Instr.dbg]
    exact ok_tuple rfl (okI_cons (Tells.ok h _) okI_nil)
  | .TableCopy _ _ => by
    simp only [Instr.dbg]
    exact ok_tuple rfl (okI_cons (Tells.ok h _) (okI_cons (Tells.ok h _) okI_nil))
  | .TableGrow _ => by
    simp only [Instr.dbg]
    exact ok_tuple rfl (okI_cons (Tells.ok h _) okI_nil)
  | .TableSize _ => by
    simp only [Instr.dbg]
    exact ok_tuple rfl (okI_cons (Tells.ok h _) okI_nil)
  | .TableFill _ => by
    simp only [Instr.dbg]
    exact ok_tuple rfl (okI_cons (Tells.ok h _) okI_nil)
  | .MemorySize _ => by
    simp only [Instr.dbg]
    exact ok_tuple rfl (okI_cons (Tells.ok h _) okI_nil)
  | .MemoryGrow _ => by
    simp only [Instr.dbg]
    exact ok_tuple rfl (okI_cons (Tells.ok h _) okI_nil)
  | .MemoryInit _ _ => by
    simp only [Instr.dbg]
    exact ok_tuple rfl (okI_cons (Tells.ok h _) (okI_cons (Tells.ok h _) okI_nil))
  | .DataDrop _ => by
    simp only [Instr.dbg]
    exact ok_tuple rfl (okI_cons (Tells.ok h _) okI_nil)
  | .MemoryCopy _ _ => by
    simp only [Instr.dbg]
    exact ok_tuple rfl (okI_cons (Tells.ok h _) (okI_cons (Tells.ok h _) okI_nil))
  | .MemoryFill _ => by
    simp only [Instr.dbg]
    exact ok_tuple rfl (okI_cons (Tells.ok h _) okI_nil)
  | .I32Const _ => by
    simp only [Instr.dbg]
    exact ok_tuple rfl (okI_cons (Tells.ok h _) okI_nil)
  | .I64Const _ => by
    simp only [Instr.dbg]
    exact ok_tuple rfl (okI_cons (Tells.ok h _) okI_nil)
  | .F32Const _ => by
    simp only [Instr.dbg]
    exact ok_tuple rfl (okI_cons (ok_word (h.f32_word _)) okI_nil)
  | .F64Const _ => by
    simp only [Instr.dbg]
    exact ok_tuple rfl (okI_cons (ok_word (h.f64_word _)) okI_nil)
  | .V128Const _ => by
    simp only [Instr.dbg]
    exact ok_tuple rfl (okI_cons (Tells.ok h _) okI_nil)
  | .I8x16Shuffle _ => by
    simp only [Instr.dbg]
    exact ok_tuple rfl (okI_cons (Tells.ok h _) okI_nil)
theorem instrs_ok (h : T.Ok) : ∀ is : List Instr, okItems (instrsDbg T is)
  | [] => by simp only [instrsDbg]; exact okI_nil
  | i :: is => by simp only [instrsDbg]; exact okI_cons (instr_ok h i) (instrs_ok h is)
theorem instrsOpt_ok (h : T.Ok) : ∀ o : Option (List Instr), (instrsOptDbg T o).Ok
  | none => by simp only [instrsOptDbg]; exact ok_word rfl
  | some is => by simp only [instrsOptDbg]; exact ok_tuple rfl (okI_cons (ok_list (instrs_ok h is)) okI_nil)
end

mutual
theorem instr_inj (h : T.Ok) : ∀ i j : Instr, i.dbg T = j.dbg T → oneNaN i = oneNaN j
  | .plain op, j, e => by
    obtain ⟨op', rfl⟩ := Instr.inv_plain (Instr.same_ctor e)
    simp only [Instr.dbg] at e
    have en := PlainOp.text_inj (word_eq e)
    rw [en]
  | .mem op m, j, e => by
    obtain ⟨op', m', rfl⟩ := Instr.inv_mem (Instr.same_ctor e)
    simp only [Instr.dbg] at e
    have en := MemOp.text_inj (by injection e)
    subst en
    have p := tuple1 e
    cases Tells.inj h p
    rfl
  | .memLane op m l, j, e => by
    obtain ⟨op', m', l', rfl⟩ := Instr.inv_memLane (Instr.same_ctor e)
    simp only [Instr.dbg] at e
    have en := MemLaneOp.text_inj (by injection e)
    subst en
    obtain ⟨p, q⟩ := tuple2 e
    cases Tells.inj h p
    cases Tells.inj h q
    rfl
  | .lane op l, j, e => by
    obtain ⟨op', l', rfl⟩ := Instr.inv_lane (Instr.same_ctor e)
    simp only [Instr.dbg] at e
    have en := LaneOp.text_inj (by injection e)
    subst en
    have p := tuple1 e
    cases Tells.inj h p
    rfl
  | .Block bt body, j, e => by
    obtain ⟨bt', body', rfl⟩ := Instr.inv_Block (Instr.same_ctor e)
    simp only [Instr.dbg] at e
    obtain ⟨p, q⟩ := tuple2 e
    cases Tells.inj h p
    have q := instrs_inj h body body' (list_eq q)
    simp only [oneNaN, q]
  | .Loop bt body, j, e => by
    obtain ⟨bt', body', rfl⟩ := Instr.inv_Loop (Instr.same_ctor e)
    simp only [Instr.dbg] at e
    obtain ⟨p, q⟩ := tuple2 e
    cases Tells.inj h p
    have q := instrs_inj h body body' (list_eq q)
    simp only [oneNaN, q]
  | .If bt thenBody elseBody, j, e => by
    obtain ⟨bt', thenBody', elseBody', rfl⟩ := Instr.inv_If (Instr.same_ctor e)
    simp only [Instr.dbg] at e
    obtain ⟨p, q, r⟩ := tuple3 e
    cases Tells.inj h p
    have q := instrs_inj h thenBody thenBody' (list_eq q)
    have r := instrsOpt_inj h elseBody elseBody' r
    simp only [oneNaN, q, r]
  | .Br l, j, e => by
    obtain ⟨l', rfl⟩ := Instr.inv_Br (Instr.same_ctor e)
    simp only [Instr.dbg] at e
    have p := tuple1 e
    cases Tells.inj h p
    rfl
  | .BrIf l, j, e => by
    obtain ⟨l', rfl⟩ := Instr.inv_BrIf (Instr.same_ctor e)
    simp only [Instr.dbg] at e
    have p := tuple1 e
    cases Tells.inj h p
    rfl
  | .BrTable ls l, j, e => by
    obtain ⟨ls', l', rfl⟩ := Instr.inv_BrTable (Instr.same_ctor e)
    simp only [Instr.dbg] at e
    obtain ⟨p, q⟩ := tuple2 e
    cases Tells.inj h p
    cases Tells.inj h q
    rfl
  | .BrOnNull l, j, e => by
    obtain ⟨l', rfl⟩ := Instr.inv_BrOnNull (Instr.same_ctor e)
    simp only [Instr.dbg] at e
    have p := tuple1 e
    cases Tells.inj h p
    rfl
  | .BrOnNonNull l, j, e => by
    obtain ⟨l', rfl⟩ := Instr.inv_BrOnNonNull (Instr.same_ctor e)
    simp only [Instr.dbg] at e
    have p := tuple1 e
    cases Tells.inj h p
    rfl
  | .BrOnCast l rt1 rt2, j, e => by
    obtain ⟨l', rt1', rt2', rfl⟩ := Instr.inv_BrOnCast (Instr.same_ctor e)
    simp only [Instr.dbg] at e
    obtain ⟨p, q, r⟩ := tuple3 e
    cases Tells.inj h p
    cases Tells.inj h q
    cases Tells.inj h r
    rfl
  | .BrOnCastFail l rt1 rt2, j, e => by
    obtain ⟨l', rt1', rt2', rfl⟩ := Instr.inv_BrOnCastFail (Instr.same_ctor e)
    simp only [Instr.dbg] at e
    obtain ⟨p, q, r⟩ := tuple3 e
    cases Tells.inj h p
    cases Tells.inj h q
    cases Tells.inj h r
    rfl
  | .Call x, j, e => by
    obtain ⟨x', rfl⟩ := Instr.inv_Call (Instr.same_ctor e)
    simp only [Instr.dbg] at e
    have p := tuple1 e
    cases Tells.inj h p
    rfl
  | .CallRef x, j, e => by
    obtain ⟨x', rfl⟩ := Instr.inv_CallRef (Instr.same_ctor e)
    simp only [Instr.dbg] at e
    have p := tuple1 e
    cases Tells.inj h p
    rfl
  | .CallIndirect x y, j, e => by
    obtain ⟨x', y', rfl⟩ := Instr.inv_CallIndirect (Instr.same_ctor e)
    simp only [Instr.dbg] at e
    obtain ⟨p, q⟩ := tuple2 e
    cases Tells.inj h p
    cases Tells.inj h q
    rfl
  | .ReturnCall x, j, e => by
    obtain ⟨x', rfl⟩ := Instr.inv_ReturnCall (Instr.same_ctor e)
    simp only [Instr.dbg] at e
    have p := tuple1 e
    cases Tells.inj h p
    rfl
  | .ReturnCallRef x, j, e => by
    obtain ⟨x', rfl⟩ := Instr.inv_ReturnCallRef (Instr.same_ctor e)
    simp only [Instr.dbg] at e
    have p := tuple1 e
    cases Tells.inj h p
    rfl
  | .ReturnCallIndirect x y, j, e => by
    obtain ⟨x', y', rfl⟩ := Instr.inv_ReturnCallIndirect (Instr.same_ctor e)
    simp only [Instr.dbg] at e
    obtain ⟨p, q⟩ := tuple2 e
    cases Tells.inj h p
    cases Tells.inj h q
    rfl
  | .Throw x, j, e => by
    obtain ⟨x', rfl⟩ := Instr.inv_Throw (Instr.same_ctor e)
    simp only [Instr.dbg] at e
    have p := tuple1 e
    cases Tells.inj h p
    rfl
  | .TryTable bt cs body, j, e => by
    obtain ⟨bt', cs', body', rfl⟩ := Instr.inv_TryTable (Instr.same_ctor e)
    simp only [Instr.dbg] at e
    obtain ⟨p, q, r⟩ := tuple3 e
    cases Tells.inj h p
    cases Tells.inj h q
    have r := instrs_inj h body body' (list_eq r)
    simp only [oneNaN, r]
  | .RefFunc x, j, e => by
    obtain ⟨x', rfl⟩ := Instr.inv_RefFunc (Instr.same_ctor e)
    simp only [Instr.dbg] at e
    have p := tuple1 e
    cases Tells.inj h p
    rfl
  | .RefNull ht, j, e => by
    obtain ⟨ht', rfl⟩ := Instr.inv_RefNull (Instr.same_ctor e)
    simp only [Instr.dbg] at e
    have p := tuple1 e
    cases Tells.inj h p
    rfl
  | .RefTest rt, j, e => by
    obtain ⟨rt', rfl⟩ := Instr.inv_RefTest (Instr.same_ctor e)
    simp only [Instr.dbg] at e
    have p := tuple1 e
    cases Tells.inj h p
    rfl
  | .RefCast rt, j, e => by
    obtain ⟨rt', rfl⟩ := Instr.inv_RefCast (Instr.same_ctor e)
    simp only [Instr.dbg] at e
    have p := tuple1 e
    cases Tells.inj h p
    rfl
  | .StructNew x, j, e => by
    obtain ⟨x', rfl⟩ := Instr.inv_StructNew (Instr.same_ctor e)
    simp only [Instr.dbg] at e
    have p := tuple1 e
    cases Tells.inj h p
    rfl
  | .StructNewDefault x, j, e => by
    obtain ⟨x', rfl⟩ := Instr.inv_StructNewDefault (Instr.same_ctor e)
    simp only [Instr.dbg] at e
    have p := tuple1 e
    cases Tells.inj h p
    rfl
  | .StructGet x i, j, e => by
    obtain ⟨x', i', rfl⟩ := Instr.inv_StructGet (Instr.same_ctor e)
    simp only [Instr.dbg] at e
    obtain ⟨p, q⟩ := tuple2 e
    cases Tells.inj h p
    cases Tells.inj h q
    rfl
  | .StructGetS x i, j, e => by
    obtain ⟨x', i', rfl⟩ := Instr.inv_StructGetS (Instr.same_ctor e)
    simp only [Instr.dbg] at e
    obtain ⟨p, q⟩ := tuple2 e
    cases Tells.inj h p
    cases Tells.inj h q
    rfl
  | .StructGetU x i, j, e => by
    obtain ⟨x', i', rfl⟩ := Instr.inv_StructGetU (Instr.same_ctor e)
    simp only [Instr.dbg] at e
    obtain ⟨p, q⟩ := tuple2 e
    cases Tells.inj h p
    cases Tells.inj h q
    rfl
  | .StructSet x i, j, e => by
    obtain ⟨x', i', rfl⟩ := Instr.inv_StructSet (Instr.same_ctor e)
    simp only [Instr.dbg] at e
    obtain ⟨p, q⟩ := tuple2 e
    cases Tells.inj h p
    cases Tells.inj h q
    rfl
  | .ArrayNew x, j, e => by
    obtain ⟨x', rfl⟩ := Instr.inv_ArrayNew (Instr.same_ctor e)
    simp only [Instr.dbg] at e
    have p := tuple1 e
    cases Tells.inj h p
    rfl
  | .ArrayNewDefault x, j, e => by
    obtain ⟨x', rfl⟩ := Instr.inv_ArrayNewDefault (Instr.same_ctor e)
    simp only [Instr.dbg] at e
    have p := tuple1 e
    cases Tells.inj h p
    rfl
  | .ArrayNewFixed x n, j, e => by
    obtain ⟨x', n', rfl⟩ := Instr.inv_ArrayNewFixed (Instr.same_ctor e)
    simp only [Instr.dbg] at e
    obtain ⟨p, q⟩ := tuple2 e
    cases Tells.inj h p
    cases Tells.inj h q
    rfl
  | .ArrayNewData x y, j, e => by
    obtain ⟨x', y', rfl⟩ := Instr.inv_ArrayNewData (Instr.same_ctor e)
    simp only [Instr.dbg] at e
    obtain ⟨p, q⟩ := tuple2 e
    cases Tells.inj h p
    cases Tells.inj h q
    rfl
  | .ArrayNewElem x y, j, e => by
    obtain ⟨x', y', rfl⟩ := Instr.inv_ArrayNewElem (Instr.same_ctor e)
    simp only [Instr.dbg] at e
    obtain ⟨p, q⟩ := tuple2 e
    cases Tells.inj h p
    cases Tells.inj h q
    rfl
  | .ArrayGet x, j, e => by
    obtain ⟨x', rfl⟩ := Instr.inv_ArrayGet (Instr.same_ctor e)
    simp only [Instr.dbg] at e
    have p := tuple1 e
    cases Tells.inj h p
    rfl
  | .ArrayGetS x, j, e => by
    obtain ⟨x', rfl⟩ := Instr.inv_ArrayGetS (Instr.same_ctor e)
    simp only [Instr.dbg] at e
    have p := tuple1 e
    cases Tells.inj h p
    rfl
  | .ArrayGetU x, j, e => by
    obtain ⟨x', rfl⟩ := Instr.inv_ArrayGetU (Instr.same_ctor e)
    simp only [Instr.dbg] at e
    have p := tuple1 e
    cases Tells.inj h p
    rfl
  | .ArraySet x, j, e => by
    obtain ⟨x', rfl⟩ := Instr.inv_ArraySet (Instr.same_ctor e)
    simp only [Instr.dbg] at e
    have p := tuple1 e
    cases Tells.inj h p
    rfl
  | .ArrayFill x, j, e => by
    obtain ⟨x', rfl⟩ := Instr.inv_ArrayFill (Instr.same_ctor e)
    simp only [Instr.dbg] at e
    have p := tuple1 e
    cases Tells.inj h p
    rfl
  | .ArrayCopy x y, j, e => by
    obtain ⟨x', y', rfl⟩ := Instr.inv_ArrayCopy (Instr.same_ctor e)
    simp only [Instr.dbg] at e
    obtain ⟨p, q⟩ := tuple2 e
    cases Tells.inj h p
    cases Tells.inj h q
    rfl
  | .ArrayInitData x y, j, e => by
    obtain ⟨x', y', rfl⟩ := Instr.inv_ArrayInitData (Instr.same_ctor e)
    simp only [Instr.dbg] at e
    obtain ⟨p, q⟩ := tuple2 e
    cases Tells.inj h p
    cases Tells.inj h q
    rfl
  | .ArrayInitElem x y, j, e => by
    obtain ⟨x', y', rfl⟩ := Instr.inv_ArrayInitElem (Instr.same_ctor e)
    simp only [Instr.dbg] at e
    obtain ⟨p, q⟩ := tuple2 e
    cases Tells.inj h p
    cases Tells.inj h q
    rfl
  | .Select ts, j, e => by
    obtain ⟨ts', rfl⟩ := Instr.inv_Select (Instr.same_ctor e)
    simp only [Instr.dbg] at e
    have p := tuple1 e
    cases Tells.inj h p
    rfl
  | .LocalGet x, j, e => by
    obtain ⟨x', rfl⟩ := Instr.inv_LocalGet (Instr.same_ctor e)
    simp only [Instr.dbg] at e
    have p := tuple1 e
    cases Tells.inj h p
    rfl
  | .LocalSet x, j, e => by
    obtain ⟨x', rfl⟩ := Instr.inv_LocalSet (Instr.same_ctor e)
    simp only [Instr.dbg] at e
    have p := tuple1 e
    cases Tells.inj h p
    rfl
  | .LocalTee x, j, e => by
    obtain ⟨x', rfl⟩ := Instr.inv_LocalTee (Instr.same_ctor e)
    simp only [Instr.dbg] at e
    have p := tuple1 e
    cases Tells.inj h p
    rfl
  | .GlobalGet x, j, e => by
    obtain ⟨x', rfl⟩ := Instr.inv_GlobalGet (Instr.same_ctor e)
    simp only [Instr.dbg] at e
    have p := tuple1 e
    cases Tells.inj h p
    rfl
  | .GlobalSet x, j, e => by
    obtain ⟨x', rfl⟩ := Instr.inv_GlobalSet (Instr.same_ctor e)
    simp only [Instr.dbg] at e
    have p := tuple1 e
    cases Tells.inj h p
    rfl
  | .TableGet x, j, e => by
    obtain ⟨x', rfl⟩ := Instr.inv_TableGet (Instr.same_ctor e)
    simp only [Instr.dbg] at e
    have p := tuple1 e
    cases Tells.inj h p
    rfl
  | .TableSet x, j, e => by
    obtain ⟨x', rfl⟩ := Instr.inv_TableSet (Instr.same_ctor e)
    simp only [Instr.dbg] at e
    have p := tuple1 e
    cases Tells.inj h p
    rfl
  | .TableInit x y, j, e => by
    obtain ⟨x', y', rfl⟩ := Instr.inv_TableInit (Instr.same_ctor e)
    simp only [Instr.dbg] at e
    obtain ⟨p, q⟩ := tuple2 e
    cases Tells.inj h p
    cases Tells.inj h q
    rfl
  | .ElemDrop x, j, e => by
    obtain ⟨x', rfl⟩ := Instr.inv_ElemDrop (Instr.same_ctor e)
    simp only [Instr.dbg] at e
    have p := tuple1 e
    cases Tells.inj h p
    rfl
  | .TableCopy x y, j, e => by
    obtain ⟨x', y', rfl⟩ := Instr.inv_TableCopy (Instr.same_ctor e)
    simp only [Instr.dbg] at e
    obtain ⟨p, q⟩ := tuple2 e
    cases Tells.inj h p
    cases Tells.inj h q
    rfl
  | .TableGrow x, j, e => by
    obtain ⟨x', rfl⟩ := Instr.inv_TableGrow (Instr.same_ctor e)
    simp only [Instr.dbg] at e
    have p := tuple1 e
    cases Tells.inj h p
    rfl
  | .TableSize x, j, e => by
    obtain ⟨x', rfl⟩ := Instr.inv_TableSize (Instr.same_ctor e)
    simp only [Instr.dbg] at e
    have p := tuple1 e
    cases Tells.inj h p
    rfl
  | .TableFill x, j, e => by
    obtain ⟨x', rfl⟩ := Instr.inv_TableFill (Instr.same_ctor e)
    simp only [Instr.dbg] at e
    have p := tuple1 e
    cases Tells.inj h p
    rfl
  | .MemorySize x, j, e => by
    obtain ⟨x', rfl⟩ := Instr.inv_MemorySize (Instr.same_ctor e)
    simp only [Instr.dbg] at e
    have p := tuple1 e
    cases Tells.inj h p
    rfl
  | .MemoryGrow x, j, e => by
    obtain ⟨x', rfl⟩ := Instr.inv_MemoryGrow (Instr.same_ctor e)
    simp only [Instr.dbg] at e
    have p := tuple1 e
    cases Tells.inj h p
    rfl
  | .MemoryInit x y, j, e => by
    obtain ⟨x', y', rfl⟩ := Instr.inv_MemoryInit (Instr.same_ctor e)
    simp only [Instr.dbg] at e
    obtain ⟨p, q⟩ := tuple2 e
    cases Tells.inj h p
    cases Tells.inj h q
    rfl
  | .DataDrop x, j, e => by
    obtain ⟨x', rfl⟩ := Instr.inv_DataDrop (Instr.same_ctor e)
    simp only [Instr.dbg] at e
    have p := tuple1 e
    cases Tells.inj h p
    rfl
  | .MemoryCopy x y, j, e => by
    obtain ⟨x', y', rfl⟩ := Instr.inv_MemoryCopy (Instr.same_ctor e)
    simp only [Instr.dbg] at e
    obtain ⟨p, q⟩ := tuple2 e
    cases Tells.inj h p
    cases Tells.inj h q
    rfl
  | .MemoryFill x, j, e => by
    obtain ⟨x', rfl⟩ := Instr.inv_MemoryFill (Instr.same_ctor e)
    simp only [Instr.dbg] at e
    have p := tuple1 e
    cases Tells.inj h p
    rfl
  | .I32Const v, j, e => by
    obtain ⟨v', rfl⟩ := Instr.inv_I32Const (Instr.same_ctor e)
    simp only [Instr.dbg] at e
    have p := tuple1 e
    cases Tells.inj h p
    rfl
  | .I64Const v, j, e => by
    obtain ⟨v', rfl⟩ := Instr.inv_I64Const (Instr.same_ctor e)
    simp only [Instr.dbg] at e
    have p := tuple1 e
    cases Tells.inj h p
    rfl
  | .F32Const bits, j, e => by
    obtain ⟨bits', rfl⟩ := Instr.inv_F32Const (Instr.same_ctor e)
    simp only [Instr.dbg] at e
    have p := tuple1 e
    have p := f32_same h (word_eq p)
    simp only [oneNaN, p]
  | .F64Const bits, j, e => by
    obtain ⟨bits', rfl⟩ := Instr.inv_F64Const (Instr.same_ctor e)
    simp only [Instr.dbg] at e
    have p := tuple1 e
    have p := f64_same h (word_eq p)
    simp only [oneNaN, p]
  | .V128Const v, j, e => by
    obtain ⟨v', rfl⟩ := Instr.inv_V128Const (Instr.same_ctor e)
    simp only [Instr.dbg] at e
    have p := tuple1 e
    cases Tells.inj h p
    rfl
  | .I8x16Shuffle lanes, j, e => by
    obtain ⟨lanes', rfl⟩ := Instr.inv_I8x16Shuffle (Instr.same_ctor e)
    simp only [Instr.dbg] at e
    have p := tuple1 e
    cases lanes_inj h p
    rfl
theorem instrs_inj (h : T.Ok) : ∀ is js : List Instr, instrsDbg T is = instrsDbg T js → oneNaNs is = oneNaNs js
  | [], [], _ => rfl
  | [], _ :: _, e => by simp only [instrsDbg] at e; cases e
  | _ :: _, [], e => by simp only [instrsDbg] at e; cases e
  | i :: is, j :: js, e => by
    simp only [instrsDbg, List.cons.injEq] at e
    simp only [oneNaNs, instr_inj h i j e.1, instrs_inj h is js e.2]
theorem instrsOpt_inj (h : T.Ok) : ∀ o o' : Option (List Instr), instrsOptDbg T o = instrsOptDbg T o' →
    oneNaNOpt o = oneNaNOpt o'
  | none, none, _ => rfl
  | none, some _, e => by simp only [instrsOptDbg] at e; cases e
  | some _, none, e => by simp only [instrsOptDbg] at e; cases e
  | some is, some js, e => by
    simp only [instrsOptDbg] at e
    simp only [oneNaNOpt, instrs_inj h is js (list_eq (tuple1 e))]
end

/-! ### The payloads of NaNs are not shown -/

theorem f32_show (h : T.Ok) (x : UInt32) : T.f32 (oneNaN32 x) = T.f32 x := by
  unfold oneNaN32
  split
  · exact (h.f32_same _ _).2 (.inr ⟨by decide, by assumption⟩)
  · rfl

theorem f64_show (h : T.Ok) (x : UInt64) : T.f64 (oneNaN64 x) = T.f64 x := by
  unfold oneNaN64
  split
  · exact (h.f64_same _ _).2 (.inr ⟨by decide, by assumption⟩)
  · rfl

mutual
theorem instr_show (h : T.Ok) (i : Instr) : (oneNaN i).dbg T = i.dbg T := by
  cases i with
  | Block bt is => simp only [oneNaN, Instr.dbg, instrs_show h is]
  | Loop bt is => simp only [oneNaN, Instr.dbg, instrs_show h is]
  | If bt is e => simp only [oneNaN, Instr.dbg, instrs_show h is, instrsOpt_show h e]
  | TryTable bt cs is => simp only [oneNaN, Instr.dbg, instrs_show h is]
  | F32Const x => simp only [oneNaN, Instr.dbg, f32_show h]
  | F64Const x => simp only [oneNaN, Instr.dbg, f64_show h]
  | _ => rfl
theorem instrs_show (h : T.Ok) (is : List Instr) : instrsDbg T (oneNaNs is) = instrsDbg T is := by
  cases is with
  | nil => rfl
  | cons i is => simp only [oneNaNs, instrsDbg, instr_show h i, instrs_show h is]
theorem instrsOpt_show (h : T.Ok) (o : Option (List Instr)) : instrsOptDbg T (oneNaNOpt o) = instrsOptDbg T o := by
  cases o with
  | none => rfl
  | some is => simp only [oneNaNOpt, instrsOptDbg, instrs_show h is]
end

end Wadec
