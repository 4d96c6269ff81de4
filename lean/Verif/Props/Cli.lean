import Verif.Props.Robust
import Verif.Proof.Text
import Verif.Model.Cli

/-! C46: the command-line tool; C48: what callers see of the causes of an error.

`t : CliText` ranges over all ways the standard library may print I/O errors and derived `Debug`
impls may print values; an error always has at least its own text (`t.io x ≠ []`). -/

namespace Wadec

open LawfulRead Spec

/-! ### Specification of the error report -/

/-- The lines of the report about an error with text `err` and causes `causes`: the error; if there
are causes, an empty line, a heading, and the causes numbered from 0; with `--verbose` an empty line,
a heading and the debug text. -/
def Spec.report (verbose : Bool) (err : String) (causes : List String) (debug : String) : String :=
  String.join <|
    ["ERROR: " ++ err ++ "\n"] ++
    (if causes = [] then [] else
      ["\nCaused by:\n"] ++ causes.zipIdx.map fun (c, i) => "    " ++ toString i ++ ": " ++ c ++ "\n") ++
    (if verbose = true then ["\nDEBUG OUTPUT:\n" ++ debug ++ "\n"] else [])

theorem join_append (a b : List String) : String.join (a ++ b) = String.join a ++ String.join b := by
  induction a with
  | nil => simp [String.join_nil]
  | cons x xs ih => simp [String.join_cons, ih, String.append_assoc]

theorem join_single (a : String) : String.join [a] = a := by
  simp [String.join_cons, String.join_nil]

theorem causeLines_eq (cs : List String) (i : Nat) :
    causeLines cs i =
      String.join ((cs.zipIdx i).map fun (c, i) => "    " ++ toString i ++ ": " ++ c ++ "\n") := by
  induction cs generalizing i with
  | nil => simp [causeLines, String.join_nil]
  | cons c cs ih => simp [causeLines, String.join_cons, ih]

theorem abort_report (verbose : Bool) (err : String) (causes : List String) (debug : String) :
    abort verbose (err :: causes) debug = ⟨"", Spec.report verbose err causes debug, 1⟩ := by
  simp only [abort, Spec.report, join_append, join_single, causeLines_eq]
  congr 1
  congr 1
  · congr 1
    cases causes with
    | nil => simp [String.join_nil]
    | cons c cs => simp [String.join_cons]
  · cases verbose <;> simp [String.join_nil, String.join_cons]

theorem report_ne (verbose : Bool) (err : String) (causes : List String) (debug : String) :
    Spec.report verbose err causes debug ≠ "" := by
  intro h
  simp only [Spec.report, join_append, join_single] at h
  have := congrArg String.length h
  simp [String.length_append] at this

section
variable {R : Type} [LawfulRead R]

/-- The input could be opened and is a well-formed module `m` up to its end. -/
def Spec.Readable (input : Except IoError R) (m : Module) : Prop :=
  ∃ r, input = .ok r ∧ BModule (avail r) m ∧ (fin r).toErr = .unexpectedEof

theorem cli_ok {t : CliText} {v : Bool} {input : Except IoError R} {m : Module}
    (h : Spec.Readable input m) :
    cliMain t v input = ⟨if v then t.debugModule m ++ "\n" else "", "", 0⟩ := by
  obtain ⟨r, rfl, hb, hf⟩ := h
  obtain ⟨r', h⟩ := module_complete hb hf
  simp only [cliMain, h]

theorem cli_cases (t : CliText) (v : Bool) (input : Except IoError R) :
    (∃ m, Spec.Readable input m) ∨
    (∃ x, input = .error x ∧ cliMain t v input = abort v (t.io x) (t.debugIo x)) ∨
    (∃ r e r', input = .ok r ∧ decodeModule r = (.err e, r') ∧
      cliMain t v input = abort v (ErrText.chain t.io e) (t.debugErr e)) := by
  cases input with
  | error x => exact .inr (.inl ⟨x, rfl, rfl⟩)
  | ok r =>
    rcases c29_total r with ⟨m, r', h⟩ | ⟨e, r', h⟩
    · exact .inl ⟨m, r, rfl, module_sound h⟩
    · exact .inr (.inr ⟨r, e, r', rfl, h, by simp only [cliMain, h]⟩)

/-- C46: the exit status is 0 exactly when the input can be opened and is a well-formed module. -/
theorem c46_status (t : CliText) (v : Bool) (input : Except IoError R) :
    (cliMain t v input).code = 0 ↔ ∃ m, Spec.Readable input m := by
  constructor
  · intro h
    rcases cli_cases t v input with h1 | ⟨x, _, h1⟩ | ⟨r, e, r', _, _, h1⟩
    · exact h1
    · rw [h1] at h; cases h
    · rw [h1] at h; cases h
  · rintro ⟨m, h⟩
    rw [cli_ok h]

/-- C46: on success nothing is written to stderr, and the module is printed to stdout exactly with
`--verbose`. -/
theorem c46_success (t : CliText) (v : Bool) {input : Except IoError R} {m : Module}
    (h : Spec.Readable input m) :
    (cliMain t v input).code = 0 ∧ (cliMain t v input).stderr = "" ∧
    (cliMain t v input).stdout = if v then t.debugModule m ++ "\n" else "" := by
  rw [cli_ok h]
  exact ⟨rfl, rfl, rfl⟩

/-- C46: an input that cannot be opened is reported, with status 1. -/
theorem c46_open (t : CliText) (v : Bool) (x : IoError) {err : String} {causes : List String}
    (h : t.io x = err :: causes) :
    cliMain t v (.error x : Except IoError R) = ⟨"", Spec.report v err causes (t.debugIo x), 1⟩ := by
  rw [← abort_report, ← h]
  rfl

/-- C46: an input that is not a well-formed module is reported, with status 1 and nothing on stdout:
the text of the error, and those of its causes in order, numbered from 0. -/
theorem c46_failure (t : CliText) (v : Bool) {r : R} (hio : ∀ x, t.io x ≠ [])
    (h : ¬ ∃ m, Spec.Readable (.ok r : Except IoError R) m) :
    ∃ e r' err causes, decodeModule r = (.err e, r') ∧ ErrText.chain t.io e = err :: causes ∧
      cliMain t v (.ok r) = ⟨"", Spec.report v err causes (t.debugErr e), 1⟩ := by
  rcases cli_cases t v (.ok r) with h1 | ⟨x, h1, _⟩ | ⟨r1, e, r', h1, h2, h3⟩
  · exact absurd h1 h
  · cases h1
  · cases h1
    have hne := LawfulText.ne_nil e t.io hio
    cases hc : ErrText.chain t.io e with
    | nil => exact absurd hc hne
    | cons err causes => exact ⟨e, r', err, causes, h2, hc, by rw [h3, hc, abort_report]⟩

/-- C46: something is written to stderr exactly when the status is not 0, which then is 1. -/
theorem c46_stderr (t : CliText) (v : Bool) (input : Except IoError R) (hio : ∀ x, t.io x ≠ []) :
    (cliMain t v input).stderr ≠ "" ↔ (cliMain t v input).code = 1 := by
  by_cases h : ∃ m, Spec.Readable input m
  · obtain ⟨m, h⟩ := h
    rw [cli_ok h]
    simp
  · cases input with
    | error x =>
      cases hc : t.io x with
      | nil => exact absurd hc (hio x)
      | cons err causes =>
        rw [c46_open t v x hc]
        simp [report_ne]
    | ok r =>
      obtain ⟨e, r', err, causes, _, _, h3⟩ := c46_failure t v hio h
      rw [h3]
      simp [report_ne]

/-! ### C48: causes -/

/-- C48: what is shown of an error is a list of texts that depends on nothing outside the error,
followed by what the reader's own error shows, if `source()` leads to one; that one is the
`io::Error` stored in the error. -/
theorem c48_chain (e : DecodeModuleError) :
    ∃ own : List String,
      (∀ io, ErrText.chain io e = own ++ ((ErrInfo.shown e).elim [] io)) ∧
      (∀ x, ErrInfo.shown e = some x → ErrInfo.root e = some x) := by
  obtain ⟨own, h⟩ := LawfulText.chain e
  refine ⟨own, fun io => ?_, LawfulText.root e⟩
  rw [h io]
  cases ErrInfo.shown e <;> rfl

/-- C48: if the reader fails with `x`, the error returned is not a consequence of the bytes before
the failure, and the I/O error in it is reachable by `source()`, then the texts of `x` conclude the
texts of the error. -/
theorem c48_reader {r r' : R} {x : IoError} {e : DecodeModuleError} (hf : fin r = .fail x)
    (hx : x ≠ .unexpectedEof) (h : decodeModule r = (.err e, r')) (hb : ¬ Forced (avail r) e)
    (hs : (ErrInfo.shown e).isSome) (io : IoError → List String) :
    ∃ own, ErrText.chain io e = own ++ io x := by
  obtain ⟨e1, r1, h1, h2⟩ := c33_reported hf hx
  rw [h] at h1
  cases h1
  obtain ⟨y, hy⟩ := Option.isSome_iff_exists.1 hs
  have hr := LawfulText.root e y hy
  obtain ⟨own, hc⟩ := LawfulText.chain e
  have hyx : y = x := by
    rcases h2 with h2 | h2 | ⟨h2, _⟩
    · exact absurd h2 hb
    · rw [hr] at h2; exact Option.some.inj h2
    · have := LawfulText.murky e h2
      rw [hr] at this; cases this
  subst hyx
  exact ⟨own, by rw [hc io, hy]⟩

end

/-! ### C48: where the chain is cut -/

/-- Reader that fails with `x` inside the module name of an import. -/
def inImportName (x : IoError) : Src :=
  ⟨[.data (preamble ++ [0x02, 0x05, 0x01, 0x01]), .fail x], []⟩

/-- C48: the chain does not always reach the I/O error: whatever the reader fails with in the name of
an import, the same text is shown, although the error contains the I/O error. -/
theorem c48_cut (x : IoError) (hx : x ≠ .interrupted) :
    ∃ e r', decodeModule (inImportName x) = (.err e, r') ∧ ErrInfo.root e = some x ∧
      ∀ io, ErrText.chain io e =
        ["failed decoding Import section", "failed parsing vector element at position 0",
          "failed decoding module name"] := by
  cases x with
  | interrupted => exact absurd rfl hx
  | unexpectedEof => exact ⟨_, _, rfl, rfl, fun _ => rfl⟩
  | other n => exact ⟨_, _, rfl, rfl, fun _ => rfl⟩

/-! ### Instances -/

/-- A way to print I/O errors. -/
def sampleText : CliText where
  io
    | .interrupted => ["operation interrupted"]
    | .unexpectedEof => ["failed to fill whole buffer"]
    | .other n => ["os error " ++ toString n]
  debugIo _ := "Error"
  debugErr _ := "DecodeModuleError"
  debugModule _ := "Module {}"

example : ∀ x, sampleText.io x ≠ [] := by intro x; cases x <;> simp [sampleText]

/-- The sample module is accepted quietly. -/
example : cliMain sampleText false (.ok (Src.ofBytes (preamble ++ bytesA))) = ⟨"", "", 0⟩ := by
  obtain ⟨r', h⟩ := modA
  have := c46_success sampleText false (input := .ok (Src.ofBytes (preamble ++ bytesA)))
    ⟨_, rfl, module_sound h⟩
  obtain ⟨h1, h2, h3⟩ := this
  revert h1 h2 h3
  cases cliMain sampleText false (.ok (Src.ofBytes (preamble ++ bytesA)))
  simp only
  rintro rfl rfl rfl
  rfl

/-- A reader failing in the middle of the preamble. -/
example : cliMain sampleText false (.ok (⟨[.data [0, 0x61], .fail (.other 5)], []⟩ : Src)) =
    ⟨"", "ERROR: failed decoding preamble\n\nCaused by:\n    0: os error 5\n", 1⟩ := by
  rfl

/-- A section with an unknown ID. -/
example : (cliMain sampleText false (.ok (Src.ofBytes (preamble ++ [0x0E])))).stderr =
    "ERROR: invalid section ID\n\nCaused by:\n    0: invalid section ID: expected one of 0x00 \
    (Custom), 0x01 (Type), 0x02 (Import), 0x03 (Function), 0x04 (Table), 0x05 (Memory), 0x06 \
    (Global), 0x07 (Export), 0x08 (Start), 0x09 (Element), 0x0A (Code), 0x0B (Data), 0x0C \
    (DataCount), 0x0D (Tag); got 0x0E\n" := by
  decide +kernel

/-- C48: the hypotheses of `c48_reader` are met by a reader failing right after the preamble. -/
example : ∃ own, ErrText.chain sampleText.io
    (DecodeModuleError.DecodeSectionHeader (.ReadSectionIdByte (.other 5))) =
      own ++ ["os error 5"] :=
  c48_reader (r := (⟨[.data preamble, .fail (.other 5)], []⟩ : Src)) (x := .other 5) (by decide)
    (by decide) (r' := _) rfl
    (fun hf => by
      have h := hf (Src.ofBytes preamble) (by rw [avail_ofBytes]; exact List.prefix_refl _)
      cases h)
    rfl sampleText.io

end Wadec
