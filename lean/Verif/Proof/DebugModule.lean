import Verif.Proof.DebugInstr
import Verif.Proof.DebugStr

/-! The `Debug` tree of a module determines the module up to the payloads of NaNs. -/

namespace Wadec

open Spec

variable {T : StdText}

theorem import_ok (h : T.Ok) (i : Import) : (dbg T i).Ok :=
  ok_struct rfl (okF_cons rfl (str_ok T _) (okF_cons rfl (str_ok T _) (okF_cons rfl (Tells.ok h _) okF_nil)))

theorem import_inj (h : T.Ok) {i j : Import} (hi : ValidUtf8 i.module_name.bytes ∧ ValidUtf8 i.item_name.bytes)
    (hj : ValidUtf8 j.module_name.bytes ∧ ValidUtf8 j.item_name.bytes) (e : dbg T i = dbg T j) : i = j := by
  obtain ⟨p, q, r⟩ := struct3 e
  cases i; cases j
  cases str_inj hi.1 hj.1 p; cases str_inj hi.2 hj.2 q; cases Tells.inj h r; rfl

theorem export_ok (h : T.Ok) (i : Export) : (dbg T i).Ok :=
  ok_struct rfl (okF_cons rfl (str_ok T _) (okF_cons rfl (Tells.ok h _) okF_nil))

theorem export_inj (h : T.Ok) {i j : Export} (hi : ValidUtf8 i.name.bytes) (hj : ValidUtf8 j.name.bytes)
    (e : dbg T i = dbg T j) : i = j := by
  obtain ⟨p, r⟩ := struct2 e
  cases i; cases j
  cases str_inj hi hj p; cases Tells.inj h r; rfl

theorem customSec_ok (h : T.Ok) (i : CustomSection) : (dbg T i).Ok :=
  ok_struct rfl (okF_cons rfl (str_ok T _) (okF_cons rfl (Tells.ok h _) okF_nil))

theorem customSec_inj (h : T.Ok) {i j : CustomSection} (hi : ValidUtf8 i.name.bytes) (hj : ValidUtf8 j.name.bytes)
    (e : dbg T i = dbg T j) : i = j := by
  obtain ⟨p, r⟩ := struct2 e
  cases i; cases j
  cases str_inj hi hj p; cases Tells.inj h r; rfl

theorem expr_ok (h : T.Ok) (is : List Instr) : (Dbg.list (instrsDbg T is)).Ok := ok_list (instrs_ok h is)

theorem expr_inj (h : T.Ok) {is js : List Instr} (e : Dbg.list (instrsDbg T is) = .list (instrsDbg T js)) :
    oneNaNs is = oneNaNs js := instrs_inj h is js (list_eq e)

theorem expr_show (h : T.Ok) (is : List Instr) : Dbg.list (instrsDbg T (oneNaNs is)) = .list (instrsDbg T is) := by
  rw [instrs_show h]

/-! For the types with instructions: well formed, determined up to payloads, payloads not shown. -/

theorem func_ok (h : T.Ok) (f : Func) : (dbg T f).Ok :=
  ok_struct rfl (okF_cons rfl (Tells.ok h _) (okF_cons rfl (Tells.ok h _) (okF_cons rfl (expr_ok h _) okF_nil)))
theorem func_inj (h : T.Ok) {f g : Func} (e : dbg T f = dbg T g) :
    ({ f with body := oneNaNs f.body } : Func) = { g with body := oneNaNs g.body } := by
  obtain ⟨p, q, r⟩ := struct3 e
  rw [Tells.inj h p, Tells.inj h q, expr_inj h r]
theorem func_show (h : T.Ok) (f : Func) : dbg T ({ f with body := oneNaNs f.body } : Func) = dbg T f := by
  show Dbg.struct _ _ = Dbg.struct _ _
  simp only [expr_show h]

theorem global_ok (h : T.Ok) (g : Global) : (dbg T g).Ok :=
  ok_struct rfl (okF_cons rfl (Tells.ok h _) (okF_cons rfl (expr_ok h _) okF_nil))
theorem global_inj (h : T.Ok) {f g : Global} (e : dbg T f = dbg T g) :
    ({ f with init := oneNaNs f.init } : Global) = { g with init := oneNaNs g.init } := by
  obtain ⟨p, r⟩ := struct2 e
  rw [Tells.inj h p, expr_inj h r]
theorem global_show (h : T.Ok) (f : Global) : dbg T ({ f with init := oneNaNs f.init } : Global) = dbg T f := by
  show Dbg.struct _ _ = Dbg.struct _ _
  simp only [expr_show h]

theorem table_ok (h : T.Ok) (g : Table) : (dbg T g).Ok :=
  ok_tuple rfl (okI_cons (Tells.ok h _) (okI_cons (expr_ok h _) okI_nil))
theorem table_inj (h : T.Ok) {f g : Table} (e : dbg T f = dbg T g) :
    ({ f with init := oneNaNs f.init } : Table) = { g with init := oneNaNs g.init } := by
  obtain ⟨p, r⟩ := tuple2 e
  rw [Tells.inj h p, expr_inj h r]
theorem table_show (h : T.Ok) (f : Table) : dbg T ({ f with init := oneNaNs f.init } : Table) = dbg T f := by
  show Dbg.tuple _ _ = Dbg.tuple _ _
  simp only [expr_show h]

theorem dataMode_ok (h : T.Ok) (m : DataMode) : (dbg T m).Ok := by
  cases m with
  | Passive => exact ok_word rfl
  | Active x o => exact ok_struct rfl (okF_cons rfl (Tells.ok h _) (okF_cons rfl (expr_ok h _) okF_nil))
theorem dataMode_inj (h : T.Ok) {m n : DataMode} (e : dbg T m = dbg T n) : oneNaNDataMode m = oneNaNDataMode n := by
  cases m with
  | Passive => cases n with
    | Passive => rfl
    | Active _ _ => exact noWay e rfl
  | Active _ _ => cases n with
    | Passive => exact noWay e rfl
    | Active _ _ =>
      obtain ⟨p, q⟩ := struct2 e
      simp only [oneNaNDataMode, Tells.inj h p, expr_inj h q]
theorem dataMode_show (h : T.Ok) (m : DataMode) : dbg T (oneNaNDataMode m) = dbg T m := by
  cases m with
  | Passive => rfl
  | Active x o =>
    show Dbg.struct _ _ = Dbg.struct _ _
    simp only [expr_show h]

theorem data_ok (h : T.Ok) (d : Data) : (dbg T d).Ok :=
  ok_struct rfl (okF_cons rfl (Tells.ok h _) (okF_cons rfl (dataMode_ok h _) okF_nil))
theorem data_inj (h : T.Ok) {f g : Data} (e : dbg T f = dbg T g) :
    ({ f with mode := oneNaNDataMode f.mode } : Data) = { g with mode := oneNaNDataMode g.mode } := by
  obtain ⟨p, r⟩ := struct2 e
  rw [Tells.inj h p, dataMode_inj h r]
theorem data_show (h : T.Ok) (f : Data) : dbg T ({ f with mode := oneNaNDataMode f.mode } : Data) = dbg T f := by
  show Dbg.struct _ _ = Dbg.struct _ _
  simp only [dataMode_show h]

theorem elemMode_ok (h : T.Ok) (m : ElemMode) : (dbg T m).Ok := by
  cases m with
  | Passive => exact ok_word rfl
  | Declare => exact ok_word rfl
  | Active x o => exact ok_struct rfl (okF_cons rfl (Tells.ok h _) (okF_cons rfl (expr_ok h _) okF_nil))
theorem elemMode_inj (h : T.Ok) {m n : ElemMode} (e : dbg T m = dbg T n) : oneNaNElemMode m = oneNaNElemMode n := by
  cases m with
  | Passive => cases n with
    | Passive => rfl
    | _ => exact noWay e rfl
  | Declare => cases n with
    | Declare => rfl
    | _ => exact noWay e rfl
  | Active _ _ => cases n with
    | Active _ _ =>
      obtain ⟨p, q⟩ := struct2 e
      simp only [oneNaNElemMode, Tells.inj h p, expr_inj h q]
    | _ => exact noWay e rfl
theorem elemMode_show (h : T.Ok) (m : ElemMode) : dbg T (oneNaNElemMode m) = dbg T m := by
  cases m with
  | Passive => rfl
  | Declare => rfl
  | Active x o =>
    show Dbg.struct _ _ = Dbg.struct _ _
    simp only [expr_show h]

theorem elem_ok (h : T.Ok) (d : Elem) : (dbg T d).Ok :=
  ok_struct rfl (okF_cons rfl (Tells.ok h _) (okF_cons rfl (ok_list (okI_map fun _ _ => expr_ok h _))
    (okF_cons rfl (elemMode_ok h _) okF_nil)))
theorem elem_inj (h : T.Ok) {f g : Elem} (e : dbg T f = dbg T g) :
    ({ f with init := f.init.map oneNaNs, mode := oneNaNElemMode f.mode } : Elem) =
      { g with init := g.init.map oneNaNs, mode := oneNaNElemMode g.mode } := by
  obtain ⟨p, q, r⟩ := struct3 e
  rw [Tells.inj h p, elemMode_inj h r, map_inj_of (fun _ _ _ _ => expr_inj h) (list_eq q)]
theorem elem_show (h : T.Ok) (f : Elem) :
    dbg T ({ f with init := f.init.map oneNaNs, mode := oneNaNElemMode f.mode } : Elem) = dbg T f := by
  show Dbg.struct _ _ = Dbg.struct _ _
  simp only [elemMode_show h, List.map_map, Function.comp_def, expr_show h]

theorem listOf_ok {α : Type} [Debug α] (h : ∀ a : α, (dbg T a).Ok) (xs : List α) : (dbg T xs).Ok :=
  ok_list (okI_map fun _ _ => h _)

theorem listOf_inj {α β : Type} [Debug α] {g : α → β} (h : ∀ {a b : α}, dbg T a = dbg T b → g a = g b)
    {xs ys : List α} (e : dbg T xs = dbg T ys) : xs.map g = ys.map g := map_inj_of (fun _ _ _ _ => h) (list_eq e)

theorem listOf_show {α : Type} [Debug α] {g : α → α} (h : ∀ a : α, dbg T (g a) = dbg T a) (xs : List α) :
    dbg T (xs.map g) = dbg T xs := by
  show Dbg.list _ = Dbg.list _
  simp only [List.map_map, Function.comp_def, h]

theorem module_ok (h : T.Ok) (m : Module) : (dbg T m).Ok :=
  ok_struct rfl
    (okF_cons rfl (Tells.ok h _) (okF_cons rfl (Tells.ok h _) (okF_cons rfl (Tells.ok h _)
    (okF_cons rfl (listOf_ok (customSec_ok h) _) (okF_cons rfl (Tells.ok h _)
    (okF_cons rfl (listOf_ok (func_ok h) _) (okF_cons rfl (listOf_ok (table_ok h) _) (okF_cons rfl (Tells.ok h _)
    (okF_cons rfl (listOf_ok (global_ok h) _) (okF_cons rfl (listOf_ok (elem_ok h) _) (okF_cons rfl (Tells.ok h _)
    (okF_cons rfl (listOf_ok (data_ok h) _) (okF_cons rfl (Tells.ok h _)
    (okF_cons rfl (listOf_ok (import_ok h) _) (okF_cons rfl (listOf_ok (export_ok h) _)
    (okF_cons rfl (Tells.ok h _) okF_nil))))))))))))))))

theorem module_inj (h : T.Ok) {m n : Module} (hm : NamesUtf8 m) (hn : NamesUtf8 n) (e : dbg T m = dbg T n) :
    oneNaNModule m = oneNaNModule n := by
  have e : Dbg.struct _ _ = Dbg.struct _ _ := e
  simp only [Dbg.struct.injEq, List.cons.injEq, Prod.mk.injEq, true_and, and_true] at e
  obtain ⟨e1, e2, e3, e4, e5, e6, e7, e8, e9, e10, e11, e12, e13, e14, e15, e16⟩ := e
  have c : m.custom_sections = n.custom_sections :=
    map_inj' (fun x hx y hy => customSec_inj h (hm.2.2 x hx) (hn.2.2 y hy)) (list_eq e4)
  have i : m.imports = n.imports :=
    map_inj' (fun x hx y hy => import_inj h (hm.1 x hx) (hn.1 y hy)) (list_eq e14)
  have x : m.exports = n.exports :=
    map_inj' (fun x hx y hy => export_inj h (hm.2.1 x hx) (hn.2.1 y hy)) (list_eq e15)
  simp only [oneNaNModule, Tells.inj h e1, Tells.inj h e2, Tells.inj h e3, c, Tells.inj h e5,
    listOf_inj (func_inj h) e6, listOf_inj (table_inj h) e7, Tells.inj h e8, listOf_inj (global_inj h) e9,
    listOf_inj (elem_inj h) e10, Tells.inj h e11, listOf_inj (data_inj h) e12, Tells.inj h e13, i, x, Tells.inj h e16]

theorem module_show (h : T.Ok) (m : Module) : dbg T (oneNaNModule m) = dbg T m := by
  show Dbg.struct _ _ = Dbg.struct _ _
  simp only [oneNaNModule, listOf_show (func_show h), listOf_show (table_show h), listOf_show (global_show h),
    listOf_show (elem_show h), listOf_show (data_show h)]

/-- The text of a module shows the module, but for the payloads of NaNs. -/
theorem module_text (h : T.Ok) {m n : Module} (hm : NamesUtf8 m) (hn : NamesUtf8 n) :
    (dbg T m).pretty = (dbg T n).pretty ↔ oneNaNModule m = oneNaNModule n := by
  constructor
  · exact fun e => module_inj h hm hn (pretty_inj (module_ok h m) (module_ok h n) e)
  · exact fun e => by rw [← module_show h m, ← module_show h n, e]

end Wadec
