import Verif.Props.LastRead
import Verif.Props.Sample
import Verif.Source.AgreeModule
import Verif.Source.AgreeCli

/-! The main theorems once more, about `Source.decode_module`: the statement-by-statement translation
of the Rust text that `tools/rs2lean.py` writes (`Verif/Source/*.lean`), instead of the model. -/

namespace Wadec

open LawfulRead Spec

variable {R S : Type} [LawfulRead R] [LawfulRead S]

/-- C17, C18, for the translated text: a module is returned exactly for the byte strings that the
binary format assigns to it. -/
theorem c18_source (bs : Bytes) (m : Module) :
    (∃ r', Source.decode_module (Src.ofBytes bs) = (.ok m, r')) ↔ BModule bs m := by
  rw [Source.decode_module_eq]
  exact c18_bytes bs m

/-- C17 for the translated text and every reader. -/
theorem c17_source {r r' : R} {m : Module} (h : Source.decode_module r = (.ok m, r')) :
    BModule (avail r) m := by
  rw [Source.decode_module_eq] at h
  exact c17_sound h

/-- C29, C30 for the translated text: whatever the reader does, the outcome is `Ok` or `Err`. -/
theorem c29_source (r : R) :
    (∃ m r', Source.decode_module r = (.ok m, r')) ∨ (∃ e r', Source.decode_module r = (.err e, r')) := by
  rw [Source.decode_module_eq]
  exact c29_total r

/-- C31 for the translated text. -/
theorem c31_source (r : R) (s : S) (ha : avail s = avail r) (hf : fin s = fin r) :
    (Source.decode_module s).1 = (Source.decode_module r).1 := by
  rw [Source.decode_module_eq, Source.decode_module_eq]
  exact c31_fragmentation r s ha hf

/-- C55 for the translated text: an error is returned exactly when it describes the first defect. -/
theorem c55_source (r : R) (e : DecodeModuleError) :
    (∃ r', Source.decode_module r = (.err e, r')) ↔ FModule (fin r) (avail r) e := by
  rw [Source.decode_module_eq]
  exact c55_module r e

/-- C56 for the translated text: any implementation of `Read`, any choice of buffer sizes by
`read_to_end`; with the results of the calls fixed, so is the outcome. -/
theorem c56_source {σ : Type} {I : Impl σ} {sizes : List Ev → Nat} {budget : Nat} {s s' : σ}
    {res : Res DecodeModuleError Module} {calls : List Ev}
    (h : Source.decode_module (⟨s, []⟩ : Rec I sizes budget) = (res, ⟨s', calls⟩)) (hn : res ≠ .fuel) :
    ((∃ m, res = .ok m ∧ BModule (Src.bytes calls) m) ∨
      (∃ e, res = .err e ∧ ∀ later, FModule (Src.ending (calls ++ later)) (Src.bytes (calls ++ later)) e)) ∧
    Calls I s calls s' := by
  rw [Source.decode_module_eq] at h
  have hr : Returns I sizes s res calls s' := ⟨budget, h, hn⟩
  refine ⟨?_, c56_trace hr⟩
  rcases c56_no_panic hr with ⟨m, rfl⟩ | ⟨e, rfl⟩
  · exact .inl ⟨m, rfl, (c56_ok hr).1⟩
  · exact .inr ⟨e, rfl, fun later => c56_err hr later⟩

/-! ### The command-line tool

`Source.main` is the translation of wadec-cli/src/main.rs; `enough` bounds the steps of its only `while` loop,
which follows the sources of an error.  `faults` says which of the calls of `println!` and `eprintln!` fail
(stdout or stderr may be a pipe that nobody reads, or the device full), and how much of their text they still write. -/

/-- C46 for the translated text: as long as stdout and stderr can be written, the process does exactly what
the other C46 theorems say of `cliMain`. -/
theorem c46_source (t : CliText) (hio : ∀ x, t.io x ≠ []) (v : Bool) (input : Except IoError R) :
    ∃ enough, ∀ fuel, enough ≤ fuel →
      Source.outcome (Source.main t fuel ⟨⟨input⟩, v⟩) [] = cliMain t v input :=
  Source.main_eq t hio v input

/-- C61: whichever writes to stdout and stderr fail, the process ends as if they had not, or panics (status
101) having written a part of what it should. -/
theorem c61_streams (t : CliText) (hio : ∀ x, t.io x ≠ []) (v : Bool) (input : Except IoError R) :
    ∃ enough, ∀ fuel, enough ≤ fuel → ∀ faults : List (Option Nat), ∀ o full : CliOutcome,
      o = Source.outcome (Source.main t fuel ⟨⟨input⟩, v⟩) faults → full = cliMain t v input →
      o = full ∨
      (o.code = 101 ∧ o.stdout.toList <+: full.stdout.toList ∧ o.stderr.toList <+: full.stderr.toList) := by
  obtain ⟨n, h⟩ := Source.main_eq t hio v input
  refine ⟨n, fun fuel hf faults o full ho hfull => ?_⟩
  subst ho hfull
  rw [← h fuel hf]
  exact Source.main_faults t fuel _ faults

/-- C61: whichever writes fail, status 0 is only given for well-formed modules, status 1 only for inputs that
are not, and there is no other status but 101. -/
theorem c61_status (t : CliText) (hio : ∀ x, t.io x ≠ []) (v : Bool) (input : Except IoError R) :
    ∃ enough, ∀ fuel, enough ≤ fuel → ∀ faults : List (Option Nat), ∀ o : CliOutcome,
      o = Source.outcome (Source.main t fuel ⟨⟨input⟩, v⟩) faults →
      (o.code = 0 ∧ ∃ m, Spec.Readable input m) ∨ (o.code = 1 ∧ ¬ ∃ m, Spec.Readable input m) ∨
      o.code = 101 := by
  obtain ⟨n, h⟩ := c61_streams t hio v input
  refine ⟨n, fun fuel hf faults o ho => ?_⟩
  rcases h fuel hf faults o _ ho rfl with he | ⟨he, _⟩
  · by_cases hr : ∃ m, Spec.Readable input m
    · exact .inl ⟨by rw [he]; exact (c46_status t v input).2 hr, hr⟩
    · refine .inr (.inl ⟨?_, hr⟩)
      rw [he]
      rcases cli_cases t v input with h1 | ⟨x, _, h1⟩ | ⟨r, e, r', _, _, h1⟩
      · exact absurd h1 hr
      · rw [h1]; rfl
      · rw [h1]; rfl
  · exact .inr (.inr he)

/-- C61: without `--verbose`, a well-formed module gives status 0 even if nothing can be written: nothing is. -/
theorem c61_quiet (t : CliText) {input : Except IoError R} {m : Module} (h : Spec.Readable input m)
    (fuel : Nat) (faults : List (Option Nat)) :
    Source.outcome (Source.main t fuel ⟨⟨input⟩, false⟩) faults = ⟨"", "", 0⟩ := by
  obtain ⟨r, rfl, hb, hf⟩ := h
  obtain ⟨r', h⟩ := module_complete hb hf
  simp only [Source.outcome, Source.main, Source.unwrap_or_else, Source.proc_bind, Source.proc_pure, Source.decode,
    Source.decode_module_eq, h]
  rfl

/-- C61: a rejected input gives status 1 if the report can be written. -/
theorem c61_report (t : CliText) (hio : ∀ x, t.io x ≠ []) (v : Bool) (input : Except IoError R)
    (h : ¬ ∃ m, Spec.Readable input m) :
    ∃ enough, ∀ fuel, enough ≤ fuel →
      (Source.outcome (Source.main t fuel ⟨⟨input⟩, v⟩) []).code = 1 ∧
      (Source.outcome (Source.main t fuel ⟨⟨input⟩, v⟩) []).stderr ≠ "" := by
  obtain ⟨n, hn⟩ := Source.main_eq t hio v input
  refine ⟨n, fun fuel hf => ?_⟩
  rw [hn fuel hf, c46_stderr t v input hio]
  rcases cli_cases t v input with h1 | ⟨x, _, h1⟩ | ⟨r, e, r', _, _, h1⟩
  · exact absurd h1 h
  · rw [h1]; exact ⟨rfl, rfl⟩
  · rw [h1]; exact ⟨rfl, rfl⟩

/-- stderr is a broken pipe: the report about a section with an unknown ID is lost, and the status is 101. -/
example : Source.outcome (Source.main sampleText 9 ⟨⟨.ok (Src.ofBytes (preamble ++ [0x0E]))⟩, false⟩) [some 0] =
    ⟨"", "", 101⟩ := by rfl

/-- The disk is full after six characters of the second line; the first call of `eprintln!` succeeds. -/
example : (Source.outcome (Source.main sampleText 9 ⟨⟨.ok (⟨[.data [0, 0x61], .fail (.other 5)], []⟩ : Src)⟩, false⟩)
    [none, some 6]) = ⟨"", "ERROR: failed decoding preamble\n\nCause", 101⟩ := by rfl

/-- a reader of the translated text that has something to read -/
example : ∃ r', Source.decode_module (Src.ofBytes (preamble ++ bytesA)) = (.ok (assemble secsA), r') :=
  (c18_source _ _).2 bModA

end Wadec
