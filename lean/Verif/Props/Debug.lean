import Verif.Props.Cli
import Verif.Props.RoundTrip
import Verif.Model.CliDebug
import Verif.Proof.DebugModule
import Verif.Proof.DebugLines
import Verif.Proof.DebugCompact

/-! C62, C63, C64: the texts that `{:#?}` (`wadec-cli --verbose`) and `{:?}` give of modules and errors say everything
there is to say about them.

`T : StdText` ranges over all ways the standard library may print floating-point numbers, unprintable characters
and I/O errors that satisfy `StdText.Ok` (Verif/Spec/Debug.lean). -/

namespace Wadec

open LawfulRead Spec

variable {R R' : Type} [LawfulRead R] [LawfulRead R'] {T : StdText}

/-! ### Modules -/

/-- A module that was decoded has only names that are UTF-8. -/
theorem names_utf8 {bs : Bytes} {m : Module} (h : BModule bs m) : NamesUtf8 m := by
  cases h with
  | @mk bs secs hs hw =>
    have enc : ∀ s ∈ secs.map Prod.snd, Encodable s := by
      intro s hm
      obtain ⟨p, hp, rfl⟩ := List.mem_map.1 hm
      obtain ⟨b, hb⟩ : ∃ b, BSection b p := by
        clear hw hm
        induction hs with
        | nil => cases hp
        | cons hb _ ih =>
          rcases List.mem_cons.1 hp with rfl | hp
          · exact ⟨_, hb⟩
          · exact ih hp
      cases hb with
      | mk _ _ hc => exact encodable_contents hc
    refine ⟨?_, ?_, ?_⟩
    · intro i hi
      simp only [assemble, importsOf, List.mem_flatMap] at hi
      obtain ⟨s, hs, hi⟩ := hi
      have := enc s hs
      cases s <;> simp only [List.not_mem_nil] at hi
      exact this i hi
    · intro i hi
      simp only [assemble, exportsOf, List.mem_flatMap] at hi
      obtain ⟨s, hs, hi⟩ := hi
      have := enc s hs
      cases s <;> simp only [List.not_mem_nil] at hi
      exact this i hi
    · intro i hi
      simp only [assemble, customsOf, List.mem_filterMap] at hi
      obtain ⟨s, hs, hi⟩ := hi
      have := enc s hs
      cases s <;> simp at hi
      subst hi
      exact this

/-- C62: for all inputs that decode, the `{:#?}` texts of the modules are the same exactly when the modules are the
same apart from the payloads of NaN constants. -/
theorem c62_text (hT : T.Ok) {r q : R} {r' q' : R'} {m m' : Module} (h : decodeModule r = (.ok m, q))
    (h' : decodeModule r' = (.ok m', q')) :
    (dbg T m).pretty = (dbg T m').pretty ↔ oneNaNModule m = oneNaNModule m' :=
  module_text hT (names_utf8 (c17_sound h)) (names_utf8 (c17_sound h'))

/-- C62: with `--verbose`, the tool prints the same for two well-formed inputs exactly when the modules are the same
apart from the payloads of NaN constants. -/
theorem c62_verbose (hT : T.Ok) (io : IoError → List String) {input : Except IoError R} {input' : Except IoError R'}
    {m m' : Module} (h : Readable input m) (h' : Readable input' m') :
    (cliMain (CliText.std T io) true input).stdout = (cliMain (CliText.std T io) true input').stdout ↔
      oneNaNModule m = oneNaNModule m' := by
  rw [cli_ok h, cli_ok h']
  obtain ⟨r, -, hb, -⟩ := h
  obtain ⟨r', -, hb', -⟩ := h'
  rw [← module_text hT (names_utf8 hb) (names_utf8 hb')]
  simp only [if_true, CliText.std]
  constructor
  · intro e
    have e := congrArg String.toList e
    simp only [String.toList_append, String.toList_ofList] at e
    exact List.append_cancel_right e
  · intro e; rw [e]

/-! Without NaNs the text shows everything. -/

mutual
theorem oneNaN_id : ∀ (i : Instr), NoNaN i → oneNaN i = i := by
  intro i h
  cases i with
  | F32Const x => simp only [NoNaN] at h; simp only [oneNaN, oneNaN32, h, if_false]
  | F64Const x => simp only [NoNaN] at h; simp only [oneNaN, oneNaN64, h, if_false]
  | Block bt is => simp only [NoNaN] at h; simp only [oneNaN, oneNaNs_id is h]
  | Loop bt is => simp only [NoNaN] at h; simp only [oneNaN, oneNaNs_id is h]
  | If bt is e => simp only [NoNaN] at h; simp only [oneNaN, oneNaNs_id is h.1, oneNaNOpt_id e h.2]
  | TryTable bt cs is => simp only [NoNaN] at h; simp only [oneNaN, oneNaNs_id is h]
  | _ => rfl
theorem oneNaNs_id : ∀ (is : List Instr), NoNaNs is → oneNaNs is = is := by
  intro is h
  cases is with
  | nil => rfl
  | cons i is => simp only [NoNaNs] at h; simp only [oneNaNs, oneNaN_id i h.1, oneNaNs_id is h.2]
theorem oneNaNOpt_id : ∀ (o : Option (List Instr)), NoNaNOpt o → oneNaNOpt o = o := by
  intro o h
  cases o with
  | none => rfl
  | some is => simp only [NoNaNOpt] at h; simp only [oneNaNOpt, oneNaNs_id is h]
end

theorem map_id_of {α : Type} {f : α → α} {l : List α} (h : ∀ x ∈ l, f x = x) : l.map f = l := by
  conv => rhs; rw [← List.map_id l]
  exact List.map_congr_left h

theorem oneNaNModule_id {m : Module} (h : NaNFree m) : oneNaNModule m = m := by
  have hf : ∀ e, e ∈ exprsOf m → oneNaNs e = e := fun e he => oneNaNs_id e (h e he)
  simp only [exprsOf, List.mem_append, List.mem_map, List.mem_flatMap] at hf
  have f1 : (m.funcs.map fun f => ({ f with body := oneNaNs f.body } : Func)) = m.funcs :=
    map_id_of fun x hx => by rw [hf _ (.inl (.inl (.inl (.inl ⟨x, hx, rfl⟩))))]
  have f2 : (m.tables.map fun t => ({ t with init := oneNaNs t.init } : Table)) = m.tables :=
    map_id_of fun x hx => by rw [hf _ (.inl (.inl (.inl (.inr ⟨x, hx, rfl⟩))))]
  have f3 : (m.globals.map fun g => ({ g with init := oneNaNs g.init } : Global)) = m.globals :=
    map_id_of fun x hx => by rw [hf _ (.inl (.inl (.inr ⟨x, hx, rfl⟩)))]
  have f4 : (m.elems.map fun e => ({ e with init := e.init.map oneNaNs, mode := oneNaNElemMode e.mode } : Elem)) =
      m.elems :=
    map_id_of fun x hx => by
      have h1 : x.init.map oneNaNs = x.init :=
        map_id_of fun y hy => hf y (.inl (.inr ⟨x, hx, .inl hy⟩))
      have h2 : oneNaNElemMode x.mode = x.mode := by
        cases hm : x.mode with
        | Active t o =>
          rw [oneNaNElemMode, hf o (.inl (.inr ⟨x, hx, .inr (by rw [hm]; simp)⟩))]
        | _ => rfl
      rw [h1, h2]
  have f5 : (m.datas.map fun d => ({ d with mode := oneNaNDataMode d.mode } : Data)) = m.datas :=
    map_id_of fun x hx => by
      have h2 : oneNaNDataMode x.mode = x.mode := by
        cases hm : x.mode with
        | Active t o =>
          rw [oneNaNDataMode, hf o (.inr ⟨x, hx, by rw [hm]; simp⟩)]
        | _ => rfl
      rw [h2]
  simp only [oneNaNModule, f1, f2, f3, f4, f5]

/-- C62: without NaN constants, the tool prints the same for two well-formed inputs exactly when they are the same
module. -/
theorem c62_exact (hT : T.Ok) (io : IoError → List String) {input : Except IoError R} {input' : Except IoError R'}
    {m m' : Module} (h : Readable input m) (h' : Readable input' m') (hn : NaNFree m) (hn' : NaNFree m') :
    (cliMain (CliText.std T io) true input).stdout = (cliMain (CliText.std T io) true input').stdout ↔ m = m' := by
  rw [c62_verbose hT io h h', oneNaNModule_id hn, oneNaNModule_id hn']

/-! ### Errors -/

/-- C63: the `{:#?}` text of an error determines the error. -/
theorem c63_text (hT : T.Ok) {e e' : DecodeModuleError} :
    (dbg T e).pretty = (dbg T e').pretty ↔ e = e' :=
  ⟨fun h => Tells.inj hT (pretty_inj (Tells.ok hT e) (Tells.ok hT e') h), fun h => by rw [h]⟩

/-- the report, with the debug text at its end -/
theorem report_tail (err : String) (causes : List String) (debug : List Char) :
    ∃ s, (Spec.report true err causes (String.ofList debug)).toList =
      s ++ ('\n' :: (headingText ++ '\n' :: debug)) ++ ['\n'] := by
  refine ⟨(String.join (["ERROR: " ++ err ++ "\n"] ++ (if causes = [] then [] else
      ["\nCaused by:\n"] ++ causes.zipIdx.map fun (c, i) => "    " ++ toString i ++ ": " ++ c ++ "\n"))).toList, ?_⟩
  simp only [Spec.report, if_true]
  rw [join_append _ ["\nDEBUG OUTPUT:\n" ++ String.ofList debug ++ "\n"], join_single]
  have h1 : "\nDEBUG OUTPUT:\n".toList = '\n' :: (headingText ++ ['\n']) := by decide
  have h2 : "\n".toList = ['\n'] := by decide
  rw [String.toList_append, String.toList_append, String.toList_append, h1, h2, String.toList_ofList (l := debug)]
  simp only [List.append_assoc, List.cons_append, List.nil_append]

/-- C63: with `--verbose`, the tool reports the same about two inputs that it rejects exactly when the errors are the
same. -/
theorem c63_verbose (hT : T.Ok) (io : IoError → List String) (hio : ∀ x, io x ≠ []) {r q : R} {r' q' : R'}
    {e e' : DecodeModuleError} (h : decodeModule r = (.err e, q)) (h' : decodeModule r' = (.err e', q')) :
    (cliMain (CliText.std T io) true (.ok r)).stderr = (cliMain (CliText.std T io) true (.ok r')).stderr ↔
      e = e' := by
  have hc : ∀ e : DecodeModuleError, ∃ err causes, ErrText.chain io e = err :: causes := by
    intro e
    cases hl : ErrText.chain io e with
    | nil => exact absurd hl (LawfulText.ne_nil e io hio)
    | cons a l => exact ⟨a, l, rfl⟩
  obtain ⟨err, causes, h1⟩ := hc e
  obtain ⟨err', causes', h1'⟩ := hc e'
  have s : ∀ {S : Type} [LawfulRead S] {r q : S} {e : DecodeModuleError} {err : String} {causes : List String},
      decodeModule r = (.err e, q) → ErrText.chain io e = err :: causes →
      (cliMain (CliText.std T io) true (.ok r)).stderr =
        Spec.report true err causes (String.ofList (dbg T e).pretty) := by
    intro S _ r q e err causes h hc
    have : cliMain (CliText.std T io) true (.ok r) =
        abort true (ErrText.chain io e) (String.ofList (dbg T e).pretty) := by
      simp only [cliMain, h, CliText.std]
    rw [this, hc, abort_report]
  rw [s h h1, s h' h1']
  constructor
  · intro hr
    obtain ⟨p, hp⟩ := report_tail err causes (dbg T e).pretty
    obtain ⟨p', hp'⟩ := report_tail err' causes' (dbg T e').pretty
    have hr := congrArg String.toList hr
    rw [hp, hp'] at hr
    have hr := List.append_cancel_right hr
    have ind : ∀ e : DecodeModuleError, indented (dbg T e).pretty = true := fun e => by
      have := pretty_indented (rest := []) rfl (dbg T e) (Tells.ok hT e)
      simpa using this
    exact (c63_text hT).1 (heading_split (ind e) (ind e') (moduleError_second T e) (moduleError_second T e') hr).2
  · rintro rfl
    rw [h1] at h1'
    cases h1'
    rfl

/-! ### `{:?}` -/

/-- C64: the `{:?}` texts of decoded modules are the same exactly when the modules are the same apart from the
payloads of NaN constants. -/
theorem c64_module (hT : T.Ok) {r q : R} {r' q' : R'} {m m' : Module} (h : decodeModule r = (.ok m, q))
    (h' : decodeModule r' = (.ok m', q')) :
    (dbg T m).compact = (dbg T m').compact ↔ oneNaNModule m = oneNaNModule m' := by
  constructor
  · exact fun e => module_inj hT (names_utf8 (c17_sound h)) (names_utf8 (c17_sound h'))
      (compact_eq (module_ok hT m) (module_ok hT m') e)
  · exact fun e => by rw [← module_show hT m, ← module_show hT m', e]

/-- C64: the `{:?}` text of an error determines the error. -/
theorem c64_error (hT : T.Ok) {e e' : DecodeModuleError} :
    (dbg T e).compact = (dbg T e').compact ↔ e = e' :=
  ⟨fun h => Tells.inj hT (compact_eq (Tells.ok hT e) (Tells.ok hT e') h), fun h => by rw [h]⟩

/-- C64: where the messages of errors mention a kind of section, a heap type, a mutability or a packed type, they
use its `{:?}` text. -/
theorem c64_names :
    (∀ k : SectionKind, k.debug.toList = (dbg T k).compact) ∧ (∀ k : AbsHeapType, k.debug.toList = (dbg T k).compact) ∧
    (∀ k : Mut, k.debug.toList = (dbg T k).compact) ∧ (∀ k : PackType, k.debug.toList = (dbg T k).compact) := by
  refine ⟨?_, ?_, ?_, ?_⟩ <;> intro k <;> cases k <;> rfl

end Wadec
