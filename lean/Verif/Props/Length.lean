import Verif.Proof.InkModule
import Verif.Props.Layout
import Verif.Props.Resources

/-! C78: how long the verbose listing of a module is. -/

namespace Wadec

open LawfulRead Spec

variable {R : Type} [LawfulRead R] {w : Nat} {T : StdText}

theorem verbose_out (io : IoError → List String) {input : Except IoError R} {m : Module} (h : Readable input m) :
    (cliMain (CliText.std T io) true input).stdout.length = (dbg T m).pretty.length + 1 := by
  rw [(c46_success (CliText.std T io) true h).2.2, if_pos rfl, String.length_append]
  show (String.ofList (dbg T m).pretty).length + 1 = _
  rw [String.length_ofList]

/-- C78: the listing of a module is at most as long as a multiple of its nodes and expanded locals, times its nesting. -/
theorem c78_upper (hw : FloatsWithin w T) (io : IoError → List String) {input : Except IoError R} {m : Module}
    (h : Readable input m) : (cliMain (CliText.std T io) true input).stdout.length ≤
      (400 + w) * (nodesModule m + localsModule m) * (12 * depthModule m + 53) := by
  rw [verbose_out io h]
  obtain ⟨h1, h2, _⟩ := (slim_module hw m).out
  have hp := (pretty_length (dbg T m)).1
  have hn : 1 ≤ nodesModule m := by unfold nodesModule; omega
  have hK : 1 ≤ (400 + w) * (nodesModule m + localsModule m) := Nat.mul_pos (by omega) (by omega)
  generalize (400 + w) * (nodesModule m + localsModule m) = K at *
  have h3 : (dbg T m).ink * (1 + 4 * (dbg T m).tall) ≤ (K - 1) * (12 * depthModule m + 53) :=
    Nat.mul_le_mul h1 (by omega)
  have h4 : (K - 1) * (12 * depthModule m + 53) + (12 * depthModule m + 53) = K * (12 * depthModule m + 53) := by
    rw [← Nat.succ_mul]; congr 1; omega
  omega

/-- C78: so, apart from the expanded locals, it is at most quadratic in the input. -/
theorem c78_bytes (hw : FloatsWithin w T) (io : IoError → List String) {r r' : R} {m : Module}
    (h : decodeModule r = (.ok m, r')) : (cliMain (CliText.std T io) true (.ok r)).stdout.length ≤
      (400 + w) * (2 * (avail r).length + localsModule m) * (4 * (avail r).length + 53) := by
  have h1 := c43_linear h
  have h2 := c45_bounded h
  refine Nat.le_trans (c78_upper hw io ⟨r, rfl, module_sound h⟩) ?_
  exact Nat.mul_le_mul (Nat.mul_le_mul_left _ (by omega)) (by omega)

/-- C78: the text on one line is linear: no nesting counts. -/
theorem c78_compact (hw : FloatsWithin w T) (m : Module) :
    (dbg T m).compact.length ≤ (400 + w) * (nodesModule m + localsModule m) := by
  obtain ⟨h1, _, h3⟩ := (slim_module hw m).out
  have := compact_length _ h3
  omega

/-! The other direction: nesting is paid for twice. -/

theorem items_hold {f : Dbg} : ∀ {fs : List Dbg}, f ∈ fs →
    f.pretty.length + 6 + 4 * breaks f.pretty ≤ (prettyItems fs).length ∧ breaks f.pretty + 1 ≤ breaks (prettyItems fs)
  | g :: fs, h => by
    simp only [prettyItems, List.length_append, part_length, breaks_append, part_breaks]
    rcases List.mem_cons.1 h with rfl | h
    · omega
    · have := items_hold h; omega

theorem fields_hold {k : String} {f : Dbg} : ∀ {fs : List (String × Dbg)}, (k, f) ∈ fs →
    f.pretty.length + 6 + 4 * breaks f.pretty ≤ (prettyFields fs).length ∧ breaks f.pretty + 1 ≤ breaks (prettyFields fs)
  | (l, g) :: fs, h => by
    have key : l.toList ++ ':' :: ' ' :: (g.pretty ++ [',', '\n']) = (l.toList ++ ':' :: ' ' :: g.pretty) ++ [',', '\n'] := by simp
    simp only [prettyFields, key, List.length_append, part_length, breaks_append, part_breaks, List.length_cons, breaks,
      Char.reduceEq, if_false]
    rcases List.mem_cons.1 h with h | h
    · obtain ⟨-, rfl⟩ := Prod.mk.inj h; omega
    · have := fields_hold h; omega

theorem tuple_hold {n : String} {f : Dbg} {fs : List Dbg} (h : f ∈ fs) :
    f.pretty.length + 9 + 4 * breaks f.pretty ≤ (Dbg.tuple n fs).pretty.length ∧
    breaks f.pretty + 2 ≤ breaks (Dbg.tuple n fs).pretty := by
  have := items_hold h
  cases fs with
  | nil => cases h
  | cons g fs =>
    have key : (Dbg.tuple n (g :: fs)).pretty = n.toList ++ ('(' :: '\n' :: (prettyItems (g :: fs) ++ [')'])) := by
      simp [Dbg.pretty, prettyItems]
    rw [key]
    simp only [List.length_append, List.length_cons, List.length_nil, breaks_append, breaks, if_true]; omega

theorem list_key {fs : List Dbg} (h : fs ≠ []) : (Dbg.list fs).pretty = '[' :: '\n' :: (prettyItems fs ++ [']']) := by
  cases fs with
  | nil => exact absurd rfl h
  | cons g fs => simp [Dbg.pretty, prettyItems]

theorem list_hold {f : Dbg} {fs : List Dbg} (h : f ∈ fs) :
    f.pretty.length + 9 + 4 * breaks f.pretty ≤ (Dbg.list fs).pretty.length ∧
    breaks f.pretty + 2 ≤ breaks (Dbg.list fs).pretty := by
  have := items_hold h
  rw [list_key (List.ne_nil_of_mem h)]
  simp only [List.length_append, List.length_cons, List.length_nil, breaks_append, breaks, if_true]; omega

theorem struct_hold {n k : String} {f : Dbg} {fs : List (String × Dbg)} (h : (k, f) ∈ fs) :
    f.pretty.length + 6 + 4 * breaks f.pretty ≤ (Dbg.struct n fs).pretty.length ∧
    breaks f.pretty + 2 ≤ breaks (Dbg.struct n fs).pretty := by
  have := fields_hold h
  cases fs with
  | nil => cases h
  | cons g fs =>
    obtain ⟨l, g⟩ := g
    have key : (Dbg.struct n ((l, g) :: fs)).pretty =
        n.toList ++ (' ' :: '{' :: '\n' :: (prettyFields ((l, g) :: fs) ++ ['}'])) := by
      simp [Dbg.pretty, prettyFields]
    rw [key]
    simp only [List.length_append, List.length_cons, breaks_append, breaks, if_true]; omega

/-- the text is as long as nesting `d` deep makes it at least -/
def Long (d : Nat) (x : Dbg) : Prop := 16 * d ^ 2 ≤ x.pretty.length ∧ 4 * d - 1 ≤ breaks x.pretty

theorem Long.le {d d' : Nat} {x : Dbg} (h : Long d x) (hd : d' ≤ d) : Long d' x :=
  ⟨Nat.le_trans (Nat.mul_le_mul_left _ (Nat.pow_le_pow_left hd 2)) h.1, Nat.le_trans (by omega) h.2⟩

/-- a construct adds two levels -/
theorem Long.nest {d : Nat} {n : String} {x : Dbg} {xs fs : List Dbg} (h : Long d x) (hd : 0 < d) (hx : x ∈ xs)
    (hf : Dbg.list xs ∈ fs) : Long (1 + d) (.tuple n fs) := by
  obtain ⟨a1, a2⟩ := list_hold hx
  obtain ⟨b1, b2⟩ := tuple_hold (n := n) hf
  obtain ⟨h1, h2⟩ := h
  refine ⟨?_, by omega⟩
  have : (1 + d) ^ 2 = d ^ 2 + 2 * d + 1 := by simp only [Nat.pow_two, Nat.add_mul, Nat.mul_add]; omega
  omega

theorem Long.tuple {d : Nat} {n : String} {x : Dbg} {fs : List Dbg} (h : Long d x) (hx : x ∈ fs) : Long d (.tuple n fs) := by
  have := tuple_hold (n := n) hx
  exact ⟨Nat.le_trans h.1 (by omega), Nat.le_trans h.2 (by omega)⟩
theorem Long.list {d : Nat} {x : Dbg} {fs : List Dbg} (h : Long d x) (hx : x ∈ fs) : Long d (.list fs) := by
  have := list_hold hx
  exact ⟨Nat.le_trans h.1 (by omega), Nat.le_trans h.2 (by omega)⟩
theorem Long.struct {d : Nat} {n k : String} {x : Dbg} {fs : List (String × Dbg)} (h : Long d x) (hx : (k, x) ∈ fs) :
    Long d (.struct n fs) := by
  have := struct_hold (n := n) hx
  exact ⟨Nat.le_trans h.1 (by omega), Nat.le_trans h.2 (by omega)⟩
theorem Long.zero (x : Dbg) : Long 0 x := ⟨by simp, by simp⟩

/-- a construct with nothing nested in it -/
theorem long_one {n : String} {x : Dbg} {xs fs : List Dbg} : Long 1 (.tuple n (x :: .list xs :: fs)) := by
  have key : (Dbg.tuple n (x :: .list xs :: fs)).pretty = n.toList ++ ('(' :: '\n' :: (prettyItems (x :: .list xs :: fs) ++ [')'])) := by
    simp [Dbg.pretty, prettyItems]
  have hl : 2 ≤ (Dbg.list xs).pretty.length := by
    cases xs <;> simp [Dbg.pretty]
  unfold Long
  rw [key]
  simp only [prettyItems, List.length_append, List.length_cons, List.length_nil, part_length, breaks_append, breaks, part_breaks,
    if_true]
  omega

theorem long_one' {n : String} {x y : Dbg} {xs fs : List Dbg} : Long 1 (.tuple n (x :: y :: .list xs :: fs)) := by
  have key : (Dbg.tuple n (x :: y :: .list xs :: fs)).pretty =
      n.toList ++ ('(' :: '\n' :: (prettyItems (x :: y :: .list xs :: fs) ++ [')'])) := by
    simp [Dbg.pretty, prettyItems]
  unfold Long
  rw [key]
  simp only [prettyItems, List.length_append, List.length_cons, List.length_nil, part_length, breaks_append, breaks, part_breaks,
    if_true]
  omega

mutual
theorem instr_long : ∀ i : Instr, Long (depthInstr i) (i.dbg T)
  | .Block bt is => by
    simp only [Instr.dbg, depthInstr]
    rcases instrs_long is with h | ⟨x, hx, hd, h⟩
    · rw [h]; exact long_one
    · exact h.nest hd hx (by simp)
  | .Loop bt is => by
    simp only [Instr.dbg, depthInstr]
    rcases instrs_long is with h | ⟨x, hx, hd, h⟩
    · rw [h]; exact long_one
    · exact h.nest hd hx (by simp)
  | .TryTable bt cs is => by
    simp only [Instr.dbg, depthInstr]
    rcases instrs_long is with h | ⟨x, hx, hd, h⟩
    · rw [h]; exact long_one'
    · exact h.nest hd hx (by simp)
  | .If bt is none => by
    simp only [Instr.dbg, depthInstr, depthOpt, Nat.max_zero]
    rcases instrs_long is with h | ⟨x, hx, hd, h⟩
    · rw [h]; exact long_one
    · exact h.nest hd hx (by simp)
  | .If bt is (some es) => by
    simp only [Instr.dbg, instrsOptDbg, depthInstr, depthOpt]
    rcases Nat.le_total (depthInstrs is) (depthInstrs es) with hle | hle
    · rw [Nat.max_eq_right hle]
      rcases instrs_long es with h | ⟨x, hx, hd, h⟩
      · rw [h]; exact long_one
      · exact (h.nest (n := "Some") hd hx (List.mem_singleton_self _)).tuple (by simp)
    · rw [Nat.max_eq_left hle]
      rcases instrs_long is with h | ⟨x, hx, hd, h⟩
      · rw [h]; exact long_one
      · exact h.nest hd hx (by simp)
  | .plain .. | .mem .. | .memLane .. | .lane .. | .BrTable .. | .Select .. | .F32Const .. | .F64Const .. | .I8x16Shuffle ..
  | .Br .. | .BrIf .. | .BrOnNull .. | .BrOnNonNull .. | .BrOnCast .. | .BrOnCastFail .. | .Call .. | .CallRef ..
  | .CallIndirect .. | .ReturnCall .. | .ReturnCallRef .. | .ReturnCallIndirect .. | .Throw .. | .RefFunc .. | .RefNull ..
  | .RefTest .. | .RefCast .. | .StructNew .. | .StructNewDefault .. | .StructGet .. | .StructGetS .. | .StructGetU ..
  | .StructSet .. | .ArrayNew .. | .ArrayNewDefault .. | .ArrayNewFixed .. | .ArrayNewData .. | .ArrayNewElem ..
  | .ArrayGet .. | .ArrayGetS .. | .ArrayGetU .. | .ArraySet .. | .ArrayFill .. | .ArrayCopy .. | .ArrayInitData ..
  | .ArrayInitElem .. | .LocalGet .. | .LocalSet .. | .LocalTee .. | .GlobalGet .. | .GlobalSet .. | .TableGet ..
  | .TableSet .. | .TableInit .. | .ElemDrop .. | .TableCopy .. | .TableGrow .. | .TableSize .. | .TableFill ..
  | .MemorySize .. | .MemoryGrow .. | .MemoryInit .. | .DataDrop .. | .MemoryCopy .. | .MemoryFill .. | .I32Const ..
  | .I64Const .. | .V128Const .. => by simp only [depthInstr]; exact Long.zero _
theorem instrs_long : ∀ is : List Instr,
    depthInstrs is = 0 ∨ ∃ x ∈ instrsDbg T is, 0 < depthInstrs is ∧ Long (depthInstrs is) x
  | [] => .inl rfl
  | i :: is => by
    simp only [depthInstrs, instrsDbg]
    rcases Nat.le_total (depthInstr i) (depthInstrs is) with hle | hle
    · rw [Nat.max_eq_right hle]
      rcases instrs_long is with h | ⟨x, hx, hd, h⟩
      · exact .inl h
      · exact .inr ⟨x, List.mem_cons_of_mem _ hx, hd, h⟩
    · rw [Nat.max_eq_left hle]
      rcases Nat.eq_zero_or_pos (depthInstr i) with h | h
      · exact .inl h
      · exact .inr ⟨_, List.mem_cons_self .., h, instr_long i⟩
end

theorem expr_long (e : Expr) : Long (depthInstrs e) (.list (instrsDbg T e)) := by
  rcases instrs_long (T := T) e with h | ⟨x, hx, hd, h⟩
  · rw [h]; exact .zero _
  · exact h.list hx

/-- a field of a module that is a list -/
theorem Long.entry {α : Type} [Debug α] {d : Nat} {n k : String} {x : α} {xs : List α} {fs : List (String × Dbg)}
    (h : Long d (dbg T x)) (hx : x ∈ xs) (hf : (k, dbg T xs) ∈ fs) : Long d (.struct n fs) :=
  (h.list (List.mem_map_of_mem hx)).struct hf

theorem module_long (m : Module) : Long (depthModule m) (dbg T m) := by
  rcases Nat.eq_zero_or_pos (depthModule m) with h0 | hd
  · rw [h0]; exact .zero _
  · have hn := mt (depthModule_lt hd (m := m)).2 (Nat.lt_irrefl _)
    by_cases h1 : ∀ f ∈ m.funcs, depthInstrs f.body < depthModule m
    · by_cases h2 : ∀ g ∈ m.globals, depthInstrs g.init < depthModule m
      · by_cases h3 : ∀ t ∈ m.tables, depthInstrs t.init < depthModule m
        · by_cases h4 : ∀ e ∈ m.elems, ElemFits (depthModule m) e
          · by_cases h5 : ∀ x ∈ m.datas, DataFits (depthModule m) x
            · exact absurd ⟨h1, h2, h3, h4, h5⟩ hn
            · simp only [Classical.not_forall] at h5
              obtain ⟨x, hx, h⟩ := h5
              simp only [DataFits, Classical.not_forall, Nat.not_lt] at h
              obtain ⟨i, o, ho, h⟩ := h
              refine Long.entry (T := T) (n := "Module") (k := "datas") (x := x) (xs := m.datas) ?_ hx (by simp)
              refine Long.struct (n := "Data") (k := "mode") (x := dbg T x.mode) ?_ (by simp)
              rw [ho]
              exact Long.struct (k := "offset") ((expr_long (T := T) o).le h) (by simp)
          · simp only [Classical.not_forall] at h4
            obtain ⟨x, hx, h⟩ := h4
            refine Long.entry (T := T) (n := "Module") (k := "elems") (x := x) (xs := m.elems) ?_ hx (by simp)
            by_cases hi : ∀ e ∈ x.init, depthInstrs e < depthModule m
            · have h : ¬ ∀ i o, x.mode = .Active i o → depthInstrs o < depthModule m := fun h' => h ⟨hi, h'⟩
              simp only [Classical.not_forall, Nat.not_lt] at h
              obtain ⟨i, o, ho, h⟩ := h
              refine Long.struct (n := "Elem") (k := "mode") (x := dbg T x.mode) ?_ (by simp)
              rw [ho]
              exact Long.struct (k := "offset") ((expr_long (T := T) o).le h) (by simp)
            · simp only [Classical.not_forall, Nat.not_lt] at hi
              obtain ⟨e, he, h⟩ := hi
              refine Long.struct (n := "Elem") (k := "init") (x := .list (x.init.map fun e => .list (instrsDbg T e))) ?_ (by simp)
              exact ((expr_long (T := T) e).le h).list (List.mem_map_of_mem (f := fun e => Dbg.list (instrsDbg T e)) he)
        · simp only [Classical.not_forall, Nat.not_lt] at h3
          obtain ⟨x, hx, h⟩ := h3
          refine Long.entry (T := T) (n := "Module") (k := "tables") (x := x) (xs := m.tables) ?_ hx (by simp)
          exact Long.tuple (n := "Table") ((expr_long (T := T) x.init).le h) (by simp)
      · simp only [Classical.not_forall, Nat.not_lt] at h2
        obtain ⟨x, hx, h⟩ := h2
        refine Long.entry (T := T) (n := "Module") (k := "globals") (x := x) (xs := m.globals) ?_ hx (by simp)
        exact Long.struct (n := "Global") (k := "init") ((expr_long (T := T) x.init).le h) (by simp)
    · simp only [Classical.not_forall, Nat.not_lt] at h1
      obtain ⟨x, hx, h⟩ := h1
      refine Long.entry (T := T) (n := "Module") (k := "funcs") (x := x) (xs := m.funcs) ?_ hx (by simp)
      exact Long.struct (n := "Func") (k := "body") ((expr_long (T := T) x.body).le h) (by simp)

/-- C78: the listing of a module is at least as long as sixteen times the square of its nesting. -/
theorem c78_nesting (io : IoError → List String) {input : Except IoError R} {m : Module} (h : Readable input m) :
    16 * depthModule m ^ 2 ≤ (cliMain (CliText.std T io) true input).stdout.length := by
  rw [verbose_out io h]
  have := (module_long (T := T) m).1
  omega

/-- C78: so it can indeed be quadratic: for every `n` (as far as the format allows it), `3 n + 26` bytes are listed in at least
`16 n²` characters. -/
theorem c78_quadratic (T : StdText) (io : IoError → List String) (n : Nat) (hn : 3 * n + 8 < 2 ^ 32) :
    (deepModule n).length = 3 * n + 26 ∧
    (cliMain (CliText.std T io) true (.ok (Src.ofBytes (deepModule n)))).code = 0 ∧
    16 * n ^ 2 ≤ (cliMain (CliText.std T io) true (.ok (Src.ofBytes (deepModule n)))).stdout.length := by
  obtain ⟨hl, m, r', h, hd⟩ := c45_deep_module n hn
  have hr : Readable (.ok (Src.ofBytes (deepModule n))) m := ⟨_, rfl, module_sound h⟩
  refine ⟨hl, (c46_status _ _ _).2 ⟨m, hr⟩, ?_⟩
  have h2 := c78_nesting (T := T) io hr
  rwa [hd] at h2

/-! Locals. -/

theorem items_count {a : Nat} : ∀ {fs : List Dbg}, (∀ f ∈ fs, a ≤ f.pretty.length + 6 + 4 * breaks f.pretty) →
    a * fs.length ≤ (prettyItems fs).length
  | [], _ => by simp
  | f :: fs, h => by
    have h1 := h f (List.mem_cons_self ..)
    have h2 := items_count fun g hg => h g (List.mem_cons_of_mem _ hg)
    simp only [prettyItems, List.length_append, part_length, List.length_cons, Nat.mul_add, Nat.mul_one]; omega

theorem items_total {α : Type} {g : α → Dbg} {size : α → Nat} : ∀ {xs : List α}, (∀ x ∈ xs, size x ≤ (g x).pretty.length) →
    total size xs ≤ (prettyItems (xs.map g)).length
  | [], _ => by simp [total]
  | x :: xs, h => by
    have h1 := h x (List.mem_cons_self ..)
    have h2 := items_total fun y hy => h y (List.mem_cons_of_mem _ hy)
    simp only [total, List.map_cons, prettyItems, List.length_append, part_length]; omega

theorem list_items (fs : List Dbg) : (prettyItems fs).length ≤ (Dbg.list fs).pretty.length := by
  cases fs with
  | nil => simp [prettyItems]
  | cons f fs => rw [list_key (by simp)]; simp only [List.length_cons, List.length_append]; omega

theorem total_scale {α : Type} (k : Nat) (f : α → Nat) : ∀ xs : List α, total (fun x => k * f x) xs = k * total f xs
  | [] => rfl
  | x :: xs => by simp only [total, total_scale k f xs, Nat.mul_add]

/-- the text of a type of a local takes at least three lines -/
theorem local_long (x : ValType) : 20 ≤ (dbg T x).pretty.length + 6 + 4 * breaks (dbg T x).pretty := by
  have : ∀ n y, 20 ≤ (Dbg.tuple n [y]).pretty.length + 6 + 4 * breaks (Dbg.tuple n [y]).pretty := fun n y => by
    have := tuple_hold (n := n) (List.mem_singleton_self y)
    omega
  cases x <;> exact this _ _

/-- C78: the listing has at least twenty characters for every expanded local. -/
theorem c78_locals (io : IoError → List String) {input : Except IoError R} {m : Module} (h : Readable input m) :
    20 * localsModule m ≤ (cliMain (CliText.std T io) true input).stdout.length := by
  rw [verbose_out io h, localsModule, ← total_scale]
  have h1 : total (fun f : Func => 20 * f.locals.length) m.funcs ≤ (prettyItems (m.funcs.map (dbg T))).length := by
    refine items_total fun f _ => ?_
    have h2 : 20 * f.locals.length ≤ (prettyItems (f.locals.map (dbg T))).length := by
      have := items_count (a := 20) (fs := f.locals.map (dbg T)) fun d hd => by
        obtain ⟨x, _, rfl⟩ := List.mem_map.1 hd
        exact local_long x
      simpa using this
    have h3 := list_items (f.locals.map (dbg T))
    have h4 := And.left (struct_hold (n := "Func") (k := "locals") (f := dbg T f.locals)
      (fs := [("type", dbg T f.type), ("locals", dbg T f.locals), ("body", .list (instrsDbg T f.body))]) (by simp))
    have h4' : _ ≤ (dbg T f).pretty.length := h4
    have h3' : _ ≤ (dbg T f.locals).pretty.length := h3
    omega
  have h3 : _ ≤ (dbg T m.funcs).pretty.length := list_items (m.funcs.map (dbg T))
  have h4 : (dbg T m.funcs).pretty.length + 6 + _ ≤ (dbg T m).pretty.length :=
    And.left (struct_hold (n := "Module") (k := "funcs") (f := dbg T m.funcs) (by simp))
  omega

/-- C78: so 24 bytes can be listed in any multiple of 20 characters up to `20 * (2 ^ 32 - 1)`. -/
theorem c78_amplified (T : StdText) (io : IoError → List String) (n : UInt32) : (manyLocals n).length = 24 ∧
    (cliMain (CliText.std T io) true (.ok (Src.ofBytes (manyLocals n)))).code = 0 ∧
    20 * n.toNat ≤ (cliMain (CliText.std T io) true (.ok (Src.ofBytes (manyLocals n)))).stdout.length := by
  obtain ⟨hl, m, r', h, hf⟩ := c43_amplification n
  have hr : Readable (.ok (Src.ofBytes (manyLocals n))) m := ⟨_, rfl, module_sound h⟩
  refine ⟨hl, (c46_status _ _ _).2 ⟨m, hr⟩, ?_⟩
  have h2 := c78_locals (T := T) io hr
  simp only [localsModule, hf, total, List.length_replicate, Nat.add_zero] at h2
  exact h2

theorem stdSample_floats : FloatsWithin 20 stdSample := by
  refine ⟨fun x => ?_, fun x => ?_⟩
  · show (if IsNaN32 x then "NaN" else toString x.toNat).length ≤ 20
    split
    · decide
    · rw [← String.length_toList]
      exact natText_length (k := 19) (Nat.lt_of_lt_of_le x.toNat_lt (by decide))
  · show (if IsNaN64 x then "NaN" else toString x.toNat).length ≤ 20
    split
    · decide
    · rw [← String.length_toList]
      exact natText_length (k := 19) (Nat.lt_of_lt_of_le x.toNat_lt (by decide))

/-- The sample module. -/
example (io : IoError → List String) : (cliMain (CliText.std stdSample io) true
    (.ok (Src.ofBytes (preamble ++ bytesA)) : Except IoError Src)).stdout.length ≤
      420 * (nodesModule (assemble secsA) + localsModule (assemble secsA)) * (12 * depthModule (assemble secsA) + 53) :=
  c78_upper stdSample_floats io ⟨_, rfl, bModA, rfl⟩
example : (dbg stdSample (assemble secsA)).compact.length ≤ 420 * (nodesModule (assemble secsA) + localsModule (assemble secsA)) :=
  c78_compact stdSample_floats _
/-- 30026 bytes, listed in more than a thousand million characters. -/
example (T : StdText) (io : IoError → List String) : (deepModule 10000).length = 30026 ∧ 1600000000 ≤
    (cliMain (CliText.std T io) true (.ok (Src.ofBytes (deepModule 10000)))).stdout.length :=
  have h := c78_quadratic T io 10000 (by decide)
  ⟨h.1, h.2.2⟩
example (T : StdText) (io : IoError → List String) :
    20 * 4294967295 ≤ (cliMain (CliText.std T io) true (.ok (Src.ofBytes (manyLocals 4294967295)))).stdout.length :=
  (c78_amplified T io 4294967295).2.2

end Wadec
