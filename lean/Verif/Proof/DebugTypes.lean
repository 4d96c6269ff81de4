import Verif.Proof.DebugBase

/-! Generated by tools/gen_tells.py: the `Debug` trees of the types of /repo/src/core without names and
instructions determine the values. -/

namespace Wadec

instance : Tells TypeIdx where
  ok h _ := ok_tuple rfl (okI_cons (Tells.ok h _) okI_nil)
  inj h a b e := by
    cases a; cases b
    cases Tells.inj h (tuple1 e); rfl

instance : Tells FuncIdx where
  ok h _ := ok_tuple rfl (okI_cons (Tells.ok h _) okI_nil)
  inj h a b e := by
    cases a; cases b
    cases Tells.inj h (tuple1 e); rfl

instance : Tells TableIdx where
  ok h _ := ok_tuple rfl (okI_cons (Tells.ok h _) okI_nil)
  inj h a b e := by
    cases a; cases b
    cases Tells.inj h (tuple1 e); rfl

instance : Tells MemIdx where
  ok h _ := ok_tuple rfl (okI_cons (Tells.ok h _) okI_nil)
  inj h a b e := by
    cases a; cases b
    cases Tells.inj h (tuple1 e); rfl

instance : Tells GlobalIdx where
  ok h _ := ok_tuple rfl (okI_cons (Tells.ok h _) okI_nil)
  inj h a b e := by
    cases a; cases b
    cases Tells.inj h (tuple1 e); rfl

instance : Tells ElemIdx where
  ok h _ := ok_tuple rfl (okI_cons (Tells.ok h _) okI_nil)
  inj h a b e := by
    cases a; cases b
    cases Tells.inj h (tuple1 e); rfl

instance : Tells DataIdx where
  ok h _ := ok_tuple rfl (okI_cons (Tells.ok h _) okI_nil)
  inj h a b e := by
    cases a; cases b
    cases Tells.inj h (tuple1 e); rfl

instance : Tells LocalIdx where
  ok h _ := ok_tuple rfl (okI_cons (Tells.ok h _) okI_nil)
  inj h a b e := by
    cases a; cases b
    cases Tells.inj h (tuple1 e); rfl

instance : Tells LabelIdx where
  ok h _ := ok_tuple rfl (okI_cons (Tells.ok h _) okI_nil)
  inj h a b e := by
    cases a; cases b
    cases Tells.inj h (tuple1 e); rfl

instance : Tells TagIdx where
  ok h _ := ok_tuple rfl (okI_cons (Tells.ok h _) okI_nil)
  inj h a b e := by
    cases a; cases b
    cases Tells.inj h (tuple1 e); rfl

instance : Tells AddrType where
  ok h a := by
    cases a with
    | I32 => exact ok_word rfl
    | I64 => exact ok_word rfl
  inj h a b e := by
    cases a with
    | I32 =>
      cases b with
      | I32 => rfl
      | _ => exact noWay e rfl
    | I64 =>
      cases b with
      | I64 => rfl
      | _ => exact noWay e rfl

instance : Tells NumType where
  ok h a := by
    cases a with
    | Int32 => exact ok_word rfl
    | Int64 => exact ok_word rfl
    | Float32 => exact ok_word rfl
    | Float64 => exact ok_word rfl
  inj h a b e := by
    cases a with
    | Int32 =>
      cases b with
      | Int32 => rfl
      | _ => exact noWay e rfl
    | Int64 =>
      cases b with
      | Int64 => rfl
      | _ => exact noWay e rfl
    | Float32 =>
      cases b with
      | Float32 => rfl
      | _ => exact noWay e rfl
    | Float64 =>
      cases b with
      | Float64 => rfl
      | _ => exact noWay e rfl

instance : Tells VecType where
  ok h a := by
    cases a with
    | V128 => exact ok_word rfl
  inj h a b e := by
    cases a with
    | V128 => cases b with
      | V128 => rfl

instance : Tells AbsHeapType where
  ok h a := by
    cases a with
    | Exn => exact ok_word rfl
    | Array => exact ok_word rfl
    | Struct => exact ok_word rfl
    | I31 => exact ok_word rfl
    | Eq => exact ok_word rfl
    | Any => exact ok_word rfl
    | Extern => exact ok_word rfl
    | Func => exact ok_word rfl
    | None => exact ok_word rfl
    | NoExtern => exact ok_word rfl
    | NoFunc => exact ok_word rfl
    | NoExn => exact ok_word rfl
  inj h a b e := by
    cases a with
    | Exn =>
      cases b with
      | Exn => rfl
      | _ => exact noWay e rfl
    | Array =>
      cases b with
      | Array => rfl
      | _ => exact noWay e rfl
    | Struct =>
      cases b with
      | Struct => rfl
      | _ => exact noWay e rfl
    | I31 =>
      cases b with
      | I31 => rfl
      | _ => exact noWay e rfl
    | Eq =>
      cases b with
      | Eq => rfl
      | _ => exact noWay e rfl
    | Any =>
      cases b with
      | Any => rfl
      | _ => exact noWay e rfl
    | Extern =>
      cases b with
      | Extern => rfl
      | _ => exact noWay e rfl
    | Func =>
      cases b with
      | Func => rfl
      | _ => exact noWay e rfl
    | None =>
      cases b with
      | None => rfl
      | _ => exact noWay e rfl
    | NoExtern =>
      cases b with
      | NoExtern => rfl
      | _ => exact noWay e rfl
    | NoFunc =>
      cases b with
      | NoFunc => rfl
      | _ => exact noWay e rfl
    | NoExn =>
      cases b with
      | NoExn => rfl
      | _ => exact noWay e rfl

instance : Tells HeapType where
  ok h a := by
    cases a with
    | Ht _ => exact ok_tuple rfl (okI_cons (Tells.ok h _) okI_nil)
    | TypeIdx _ => exact ok_tuple rfl (okI_cons (Tells.ok h _) okI_nil)
  inj h a b e := by
    cases a with
    | Ht _ =>
      cases b with
      | Ht _ => exact congrArg HeapType.Ht (Tells.inj h (tuple1 e))
      | _ => exact noWay e rfl
    | TypeIdx _ =>
      cases b with
      | TypeIdx _ => exact congrArg HeapType.TypeIdx (Tells.inj h (tuple1 e))
      | _ => exact noWay e rfl

instance : Tells RefType where
  ok h _ := ok_struct rfl (okF_cons rfl (Tells.ok h _) (okF_cons rfl (Tells.ok h _) okF_nil))
  inj h a b e := by
    cases a; cases b
    obtain ⟨p, q⟩ := struct2 e
    cases Tells.inj h p; cases Tells.inj h q; rfl

instance : Tells ValType where
  ok h a := by
    cases a with
    | Num _ => exact ok_tuple rfl (okI_cons (Tells.ok h _) okI_nil)
    | Vec _ => exact ok_tuple rfl (okI_cons (Tells.ok h _) okI_nil)
    | Ref _ => exact ok_tuple rfl (okI_cons (Tells.ok h _) okI_nil)
  inj h a b e := by
    cases a with
    | Num _ =>
      cases b with
      | Num _ => exact congrArg ValType.Num (Tells.inj h (tuple1 e))
      | _ => exact noWay e rfl
    | Vec _ =>
      cases b with
      | Vec _ => exact congrArg ValType.Vec (Tells.inj h (tuple1 e))
      | _ => exact noWay e rfl
    | Ref _ =>
      cases b with
      | Ref _ => exact congrArg ValType.Ref (Tells.inj h (tuple1 e))
      | _ => exact noWay e rfl

instance : Tells Mut where
  ok h a := by
    cases a with
    | Const => exact ok_word rfl
    | Var => exact ok_word rfl
  inj h a b e := by
    cases a with
    | Const =>
      cases b with
      | Const => rfl
      | _ => exact noWay e rfl
    | Var =>
      cases b with
      | Var => rfl
      | _ => exact noWay e rfl

instance : Tells GlobalType where
  ok h _ := ok_tuple rfl (okI_cons (Tells.ok h _) (okI_cons (Tells.ok h _) okI_nil))
  inj h a b e := by
    cases a; cases b
    obtain ⟨p, q⟩ := tuple2 e
    cases Tells.inj h p; cases Tells.inj h q; rfl

instance : Tells PackType where
  ok h a := by
    cases a with
    | I8 => exact ok_word rfl
    | I16 => exact ok_word rfl
  inj h a b e := by
    cases a with
    | I8 =>
      cases b with
      | I8 => rfl
      | _ => exact noWay e rfl
    | I16 =>
      cases b with
      | I16 => rfl
      | _ => exact noWay e rfl

instance : Tells StorageType where
  ok h a := by
    cases a with
    | ValType _ => exact ok_tuple rfl (okI_cons (Tells.ok h _) okI_nil)
    | PackType _ => exact ok_tuple rfl (okI_cons (Tells.ok h _) okI_nil)
  inj h a b e := by
    cases a with
    | ValType _ =>
      cases b with
      | ValType _ => exact congrArg StorageType.ValType (Tells.inj h (tuple1 e))
      | _ => exact noWay e rfl
    | PackType _ =>
      cases b with
      | PackType _ => exact congrArg StorageType.PackType (Tells.inj h (tuple1 e))
      | _ => exact noWay e rfl

instance : Tells FieldType where
  ok h _ := ok_tuple rfl (okI_cons (Tells.ok h _) (okI_cons (Tells.ok h _) okI_nil))
  inj h a b e := by
    cases a; cases b
    obtain ⟨p, q⟩ := tuple2 e
    cases Tells.inj h p; cases Tells.inj h q; rfl

instance : Tells CompType where
  ok h a := by
    cases a with
    | Struct _ => exact ok_tuple rfl (okI_cons (Tells.ok h _) okI_nil)
    | Array _ => exact ok_tuple rfl (okI_cons (Tells.ok h _) okI_nil)
    | Func _ _ => exact ok_struct rfl (okF_cons rfl (Tells.ok h _) (okF_cons rfl (Tells.ok h _) okF_nil))
  inj h a b e := by
    cases a with
    | Struct _ =>
      cases b with
      | Struct _ => exact congrArg CompType.Struct (Tells.inj h (tuple1 e))
      | _ => exact noWay e rfl
    | Array _ =>
      cases b with
      | Array _ => exact congrArg CompType.Array (Tells.inj h (tuple1 e))
      | _ => exact noWay e rfl
    | Func _ _ =>
      cases b with
      | Func _ _ =>
        obtain ⟨p, q⟩ := struct2 e
        cases Tells.inj h p; cases Tells.inj h q; rfl
      | _ => exact noWay e rfl

instance : Tells SubType where
  ok h _ := ok_struct rfl (okF_cons rfl (Tells.ok h _) (okF_cons rfl (Tells.ok h _) (okF_cons rfl (Tells.ok h _) okF_nil)))
  inj h a b e := by
    cases a; cases b
    obtain ⟨p, q, r⟩ := struct3 e
    cases Tells.inj h p; cases Tells.inj h q; cases Tells.inj h r; rfl

instance : Tells RecType where
  ok h _ := ok_tuple rfl (okI_cons (Tells.ok h _) okI_nil)
  inj h a b e := by
    cases a; cases b
    cases Tells.inj h (tuple1 e); rfl

instance : Tells Limits where
  ok h _ := ok_struct rfl (okF_cons rfl (Tells.ok h _) (okF_cons rfl (Tells.ok h _) (okF_cons rfl (Tells.ok h _) okF_nil)))
  inj h a b e := by
    cases a; cases b
    obtain ⟨p, q, r⟩ := struct3 e
    cases Tells.inj h p; cases Tells.inj h q; cases Tells.inj h r; rfl

instance : Tells MemType where
  ok h _ := ok_struct rfl (okF_cons rfl (Tells.ok h _) okF_nil)
  inj h a b e := by
    cases a; cases b
    cases Tells.inj h (struct1 e); rfl

instance : Tells TableType where
  ok h _ := ok_struct rfl (okF_cons rfl (Tells.ok h _) (okF_cons rfl (Tells.ok h _) okF_nil))
  inj h a b e := by
    cases a; cases b
    obtain ⟨p, q⟩ := struct2 e
    cases Tells.inj h p; cases Tells.inj h q; rfl

instance : Tells TagType where
  ok h _ := ok_tuple rfl (okI_cons (Tells.ok h _) okI_nil)
  inj h a b e := by
    cases a; cases b
    cases Tells.inj h (tuple1 e); rfl

instance : Tells ExternType where
  ok h a := by
    cases a with
    | Func _ => exact ok_tuple rfl (okI_cons (Tells.ok h _) okI_nil)
    | Table _ => exact ok_tuple rfl (okI_cons (Tells.ok h _) okI_nil)
    | Mem _ => exact ok_tuple rfl (okI_cons (Tells.ok h _) okI_nil)
    | Global _ => exact ok_tuple rfl (okI_cons (Tells.ok h _) okI_nil)
    | Tag _ => exact ok_tuple rfl (okI_cons (Tells.ok h _) okI_nil)
  inj h a b e := by
    cases a with
    | Func _ =>
      cases b with
      | Func _ => exact congrArg ExternType.Func (Tells.inj h (tuple1 e))
      | _ => exact noWay e rfl
    | Table _ =>
      cases b with
      | Table _ => exact congrArg ExternType.Table (Tells.inj h (tuple1 e))
      | _ => exact noWay e rfl
    | Mem _ =>
      cases b with
      | Mem _ => exact congrArg ExternType.Mem (Tells.inj h (tuple1 e))
      | _ => exact noWay e rfl
    | Global _ =>
      cases b with
      | Global _ => exact congrArg ExternType.Global (Tells.inj h (tuple1 e))
      | _ => exact noWay e rfl
    | Tag _ =>
      cases b with
      | Tag _ => exact congrArg ExternType.Tag (Tells.inj h (tuple1 e))
      | _ => exact noWay e rfl

instance : Tells Memarg where
  ok h _ := ok_struct rfl (okF_cons rfl (Tells.ok h _) (okF_cons rfl (Tells.ok h _) (okF_cons rfl (Tells.ok h _) okF_nil)))
  inj h a b e := by
    cases a; cases b
    obtain ⟨p, q, r⟩ := struct3 e
    cases Tells.inj h p; cases Tells.inj h q; cases Tells.inj h r; rfl

instance : Tells LaneIdx where
  ok h _ := ok_tuple rfl (okI_cons (Tells.ok h _) okI_nil)
  inj h a b e := by
    cases a; cases b
    cases Tells.inj h (tuple1 e); rfl

instance : Tells BlockType where
  ok h a := by
    cases a with
    | Empty => exact ok_word rfl
    | T _ => exact ok_tuple rfl (okI_cons (Tells.ok h _) okI_nil)
    | I _ => exact ok_tuple rfl (okI_cons (Tells.ok h _) okI_nil)
  inj h a b e := by
    cases a with
    | Empty =>
      cases b with
      | Empty => rfl
      | _ => exact noWay e rfl
    | T _ =>
      cases b with
      | T _ => exact congrArg BlockType.T (Tells.inj h (tuple1 e))
      | _ => exact noWay e rfl
    | I _ =>
      cases b with
      | I _ => exact congrArg BlockType.I (Tells.inj h (tuple1 e))
      | _ => exact noWay e rfl

instance : Tells Catch where
  ok h a := by
    cases a with
    | Catch _ _ => exact ok_tuple rfl (okI_cons (Tells.ok h _) (okI_cons (Tells.ok h _) okI_nil))
    | CatchRef _ _ => exact ok_tuple rfl (okI_cons (Tells.ok h _) (okI_cons (Tells.ok h _) okI_nil))
    | CatchAll _ => exact ok_tuple rfl (okI_cons (Tells.ok h _) okI_nil)
    | CatchAllRef _ => exact ok_tuple rfl (okI_cons (Tells.ok h _) okI_nil)
  inj h a b e := by
    cases a with
    | Catch _ _ =>
      cases b with
      | Catch _ _ =>
        obtain ⟨p, q⟩ := tuple2 e
        cases Tells.inj h p; cases Tells.inj h q; rfl
      | _ => exact noWay e rfl
    | CatchRef _ _ =>
      cases b with
      | CatchRef _ _ =>
        obtain ⟨p, q⟩ := tuple2 e
        cases Tells.inj h p; cases Tells.inj h q; rfl
      | _ => exact noWay e rfl
    | CatchAll _ =>
      cases b with
      | CatchAll _ => exact congrArg Catch.CatchAll (Tells.inj h (tuple1 e))
      | _ => exact noWay e rfl
    | CatchAllRef _ =>
      cases b with
      | CatchAllRef _ => exact congrArg Catch.CatchAllRef (Tells.inj h (tuple1 e))
      | _ => exact noWay e rfl

instance : Tells ExternIdx where
  ok h a := by
    cases a with
    | Func _ => exact ok_tuple rfl (okI_cons (Tells.ok h _) okI_nil)
    | Global _ => exact ok_tuple rfl (okI_cons (Tells.ok h _) okI_nil)
    | Table _ => exact ok_tuple rfl (okI_cons (Tells.ok h _) okI_nil)
    | Mem _ => exact ok_tuple rfl (okI_cons (Tells.ok h _) okI_nil)
    | Tag _ => exact ok_tuple rfl (okI_cons (Tells.ok h _) okI_nil)
  inj h a b e := by
    cases a with
    | Func _ =>
      cases b with
      | Func _ => exact congrArg ExternIdx.Func (Tells.inj h (tuple1 e))
      | _ => exact noWay e rfl
    | Global _ =>
      cases b with
      | Global _ => exact congrArg ExternIdx.Global (Tells.inj h (tuple1 e))
      | _ => exact noWay e rfl
    | Table _ =>
      cases b with
      | Table _ => exact congrArg ExternIdx.Table (Tells.inj h (tuple1 e))
      | _ => exact noWay e rfl
    | Mem _ =>
      cases b with
      | Mem _ => exact congrArg ExternIdx.Mem (Tells.inj h (tuple1 e))
      | _ => exact noWay e rfl
    | Tag _ =>
      cases b with
      | Tag _ => exact congrArg ExternIdx.Tag (Tells.inj h (tuple1 e))
      | _ => exact noWay e rfl

instance : Tells SectionKind where
  ok h a := by
    cases a with
    | Custom => exact ok_word rfl
    | «Type» => exact ok_word rfl
    | Import => exact ok_word rfl
    | Function => exact ok_word rfl
    | Table => exact ok_word rfl
    | Memory => exact ok_word rfl
    | Tag => exact ok_word rfl
    | Global => exact ok_word rfl
    | Export => exact ok_word rfl
    | Start => exact ok_word rfl
    | Element => exact ok_word rfl
    | DataCount => exact ok_word rfl
    | Code => exact ok_word rfl
    | Data => exact ok_word rfl
  inj h a b e := by
    cases a with
    | Custom =>
      cases b with
      | Custom => rfl
      | _ => exact noWay e rfl
    | «Type» =>
      cases b with
      | «Type» => rfl
      | _ => exact noWay e rfl
    | Import =>
      cases b with
      | Import => rfl
      | _ => exact noWay e rfl
    | Function =>
      cases b with
      | Function => rfl
      | _ => exact noWay e rfl
    | Table =>
      cases b with
      | Table => rfl
      | _ => exact noWay e rfl
    | Memory =>
      cases b with
      | Memory => rfl
      | _ => exact noWay e rfl
    | Tag =>
      cases b with
      | Tag => rfl
      | _ => exact noWay e rfl
    | Global =>
      cases b with
      | Global => rfl
      | _ => exact noWay e rfl
    | Export =>
      cases b with
      | Export => rfl
      | _ => exact noWay e rfl
    | Start =>
      cases b with
      | Start => rfl
      | _ => exact noWay e rfl
    | Element =>
      cases b with
      | Element => rfl
      | _ => exact noWay e rfl
    | DataCount =>
      cases b with
      | DataCount => rfl
      | _ => exact noWay e rfl
    | Code =>
      cases b with
      | Code => rfl
      | _ => exact noWay e rfl
    | Data =>
      cases b with
      | Data => rfl
      | _ => exact noWay e rfl

instance : Tells SectionHeader where
  ok h _ := ok_struct rfl (okF_cons rfl (Tells.ok h _) (okF_cons rfl (Tells.ok h _) okF_nil))
  inj h a b e := by
    cases a; cases b
    obtain ⟨p, q⟩ := struct2 e
    cases Tells.inj h p; cases Tells.inj h q; rfl

end Wadec
