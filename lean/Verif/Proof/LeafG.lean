import Verif.Proof.Tables

/-! Totality and reader-independence of the instructions without nested instructions. -/

namespace Wadec

open LawfulRead Spec

variable {R S : Type} [LawfulRead R] [LawfulRead S] {L : Nat}

theorem g0 {ε α : Type} [ErrInfo ε] {k : Nat} {d : Dec R ε α} {d' : Dec S ε α} (h : G k L d d') :
    G 0 L d d' := G.mono h (by omega)

theorem aggType_g : G 0 L (aggType : Dec R _ _) (aggType : Dec S _ _) := g0 (gmap TypeIdx.g)
theorem aggField_g : G 0 L (aggField : Dec R _ _) (aggField : Dec S _ _) := g0 (gmap decodeU32_g)
theorem aggLen_g : G 0 L (aggLen : Dec R _ _) (aggLen : Dec S _ _) := g0 (gmap decodeU32_g)
theorem aggData_g : G 0 L (aggData : Dec R _ _) (aggData : Dec S _ _) := g0 (gmap DataIdx.g)
theorem aggElem_g : G 0 L (aggElem : Dec R _ _) (aggElem : Dec S _ _) := g0 (gmap ElemIdx.g)
theorem refHeap_g : G 0 L (refHeap : Dec R _ _) (refHeap : Dec S _ _) := g0 (gmap HeapType.g)
theorem ctlHeap_g : G 0 L (ctlHeap : Dec R _ _) (ctlHeap : Dec S _ _) := g0 (gmap HeapType.g)
theorem ctlLabel_g : G 0 L (ctlLabel : Dec R _ _) (ctlLabel : Dec S _ _) := g0 (gmap LabelIdx.g)
theorem ctlFunc_g : G 0 L (ctlFunc : Dec R _ _) (ctlFunc : Dec S _ _) := g0 (gmap FuncIdx.g)
theorem ctlType_g : G 0 L (ctlType : Dec R _ _) (ctlType : Dec S _ _) := g0 (gmap TypeIdx.g)
theorem ctlTable_g : G 0 L (ctlTable : Dec R _ _) (ctlTable : Dec S _ _) := g0 (gmap TableIdx.g)
theorem tabTable_g : G 0 L (tabTable : Dec R _ _) (tabTable : Dec S _ _) := g0 (gmap TableIdx.g)
theorem tabElem_g : G 0 L (tabElem : Dec R _ _) (tabElem : Dec S _ _) := g0 (gmap ElemIdx.g)
theorem memMem_g : G 0 L (memMem : Dec R _ _) (memMem : Dec S _ _) := g0 (gmap MemIdx.g)
theorem memData_g : G 0 L (memData : Dec R _ _) (memData : Dec S _ _) := g0 (gmap DataIdx.g)
theorem varLocal_g : G 0 L (varLocal : Dec R _ _) (varLocal : Dec S _ _) := g0 (gmap LocalIdx.g)
theorem varGlobal_g : G 0 L (varGlobal : Dec R _ _) (varGlobal : Dec S _ _) := g0 (gmap GlobalIdx.g)
theorem vecMemarg_g : G 0 L (vecMemarg : Dec R _ _) (vecMemarg : Dec S _ _) := g0 (gmap Memarg.g)
theorem vecLane_g : G 0 L (vecLane : Dec R _ _) (vecLane : Dec S _ _) := g0 (gmap LaneIdx.g)

local macro "a1" t:term:max : tactic =>
  `(tactic| refine G.ite (fun _ => G.bind0 $t fun _ => G.pure) fun _ => ?_)
local macro "a2" t:term:max u:term:max : tactic =>
  `(tactic| refine G.ite (fun _ => G.bind0 $t fun _ => G.bind0 $u fun _ => G.pure) fun _ => ?_)

theorem parseFB_g (op : UInt32) :
    G 0 L (parseFB op : Dec R _ _) (parseFB op : Dec S _ _) := by
  unfold parseFB
  a1 aggType_g
  a1 aggType_g
  a2 aggType_g aggField_g
  a2 aggType_g aggField_g
  a2 aggType_g aggField_g
  a2 aggType_g aggField_g
  a1 aggType_g
  a1 aggType_g
  a2 aggType_g aggLen_g
  a2 aggType_g aggData_g
  a2 aggType_g aggElem_g
  a1 aggType_g
  a1 aggType_g
  a1 aggType_g
  a1 aggType_g
  a1 aggType_g
  a2 aggType_g aggType_g
  a2 aggType_g aggData_g
  a2 aggType_g aggElem_g
  refine G.ite (fun ho => ?_) fun _ => G.ite (fun _ => ?_) fun _ => ?_
  · refine G.bind0 refHeap_g fun _ => ?_
    refine G.ite (fun _ => G.pure) fun h1 => G.ite (fun _ => G.pure) fun h2 =>
      G.ite (fun _ => G.pure) fun h3 => G.ite (fun _ => G.pure) fun h4 => ?_
    simp only [UInt32.le_iff_toNat_le, ← UInt32.toNat_inj] at ho h1 h2 h3 h4
    simp at ho h1 h2 h3 h4
    omega
  · refine G.bind0 (g0 (gmap castop_g)) ?_
    rintro ⟨n1, n2⟩
    exact G.bind0 ctlLabel_g fun _ => G.bind0 ctlHeap_g fun _ => G.bind0 ctlHeap_g fun _ =>
      G.ite (fun _ => G.pure) fun _ => G.pure
  · split
    · exact G.pure
    · exact G.err

theorem parseFC_g (op : UInt32) :
    G 0 L (parseFC op : Dec R _ _) (parseFC op : Dec S _ _) := by
  unfold parseFC
  a2 memData_g memMem_g
  a1 memData_g
  a2 memMem_g memMem_g
  a1 memMem_g
  a2 tabElem_g tabTable_g
  a1 tabElem_g
  a2 tabTable_g tabTable_g
  a1 tabTable_g
  a1 tabTable_g
  a1 tabTable_g
  split
  · exact G.pure
  · exact G.err

theorem parseFD_g (op : UInt32) :
    G 0 L (parseFD op : Dec R _ _) (parseFD op : Dec S _ _) := by
  unfold parseFD
  refine G.ite (fun ho => ?_) fun _ => G.ite (fun ho => ?_) fun _ =>
    G.ite (fun _ => G.bind0 (g0 vecBytes_g) fun _ => G.pure) fun _ =>
    G.ite (fun _ => G.bind0 (g0 vecBytes_g) fun _ => G.pure) fun _ => G.ite (fun ho => ?_) fun _ => ?_
  · refine G.bind0 vecMemarg_g fun _ => ?_
    split
    · exact G.pure
    · rename_i h; exact absurd h (memFD_total ho)
  · refine G.bind0 vecMemarg_g fun _ => ?_
    refine G.bind0 vecLane_g fun _ => ?_
    split
    · exact G.pure
    · rename_i h; exact absurd h (memLaneFD_total ho)
  · refine G.bind0 vecLane_g fun _ => ?_
    split
    · exact G.pure
    · rename_i h; exact absurd h (laneFD_total ho)
  · split
    · exact G.pure
    · exact G.err

theorem parseSimple_g (op : UInt8) :
    G 0 L (parseSimple op : Dec R _ _) (parseSimple op : Dec S _ _) := by
  unfold parseSimple
  refine G.ite (fun _ => G.pure) fun _ => ?_
  a1 (g0 (gmap (list_g fun _ _ => g0 ValType.g)))
  a1 (g0 (gmap TagIdx.g))
  a1 ctlLabel_g
  a1 ctlLabel_g
  a2 (g0 (gmap (list_g fun _ _ => g0 LabelIdx.g))) ctlLabel_g
  a1 ctlFunc_g
  a2 ctlType_g ctlTable_g
  a1 ctlFunc_g
  a2 ctlType_g ctlTable_g
  a1 ctlType_g
  a1 ctlType_g
  a1 ctlLabel_g
  a1 ctlLabel_g
  a1 refHeap_g
  a1 (g0 (gmap FuncIdx.g))
  refine G.ite (fun _ => G.bind0 (g0 (gmap decodeU32_g)) fun _ => parseFB_g _) fun _ => ?_
  a1 varLocal_g
  a1 varLocal_g
  a1 varLocal_g
  a1 varGlobal_g
  a1 varGlobal_g
  a1 tabTable_g
  a1 tabTable_g
  refine G.ite (fun ho => ?_) fun _ => ?_
  · refine G.bind0 (g0 (gmap Memarg.g)) fun _ => ?_
    split
    · exact G.pure
    · rename_i h; exact absurd h (mem_total ho)
  a1 memMem_g
  a1 memMem_g
  a1 (g0 (gmap decodeI32_g))
  a1 (g0 (gmap decodeI64_g))
  a1 (g0 (gmap decodeF32_g))
  a1 (g0 (gmap decodeF64_g))
  refine G.ite (fun _ => ?_) fun _ => G.ite (fun _ => ?_) fun _ => ?_
  · exact G.bind0 (g0 (gmap decodeU32_g)) fun _ => parseFC_g _
  · exact G.bind0 (g0 (gmap decodeU32_g)) fun _ => parseFD_g _
  · split
    · exact G.pure
    · exact G.err

end Wadec
