import Verif.Model.Display

/-! Model of wadec-cli/src/main.rs.

Not modelled: the parsing of the command line by clap (`--help`, `--version` and usage errors never
reach `decode_module`), and the panics of `println!`/`eprintln!` when stdout or stderr cannot be
written to.  The derived `{:#?}` texts are parameters here; Verif/Model/CliDebug.lean gives them. -/

namespace Wadec

variable {R : Type} [Read R]

/-- What the process of wadec-cli/src/main.rs:20-51 leaves behind: `println!`, `eprintln!` and the exit
status. -/
structure CliOutcome where
  stdout : String
  stderr : String
  code : Nat
  deriving DecidableEq, Repr

/-- The texts of the standard library and of derived impls that the program prints but that are not
its own: `Display` of an `io::Error` and of its sources, and `{:#?}` of errors and modules
(wadec-cli/src/main.rs:26, 31-43, 47). -/
structure CliText where
  io : IoError → List String
  debugIo : IoError → String
  debugErr : DecodeModuleError → String
  debugModule : Module → String

/-- wadec-cli/src/main.rs:41-43: `"    {i}: {cause}"` lines, `for (i, cause) in enumerate()` -/
def causeLines : List String → Nat → String
  | [], _ => ""
  | c :: cs, i => "    " ++ toString i ++ ": " ++ c ++ "\n" ++ causeLines cs (i + 1)

/-- wadec-cli/src/main.rs:30-51 `abort`; `chain` is the text of `err` and those of `err.source()`,
`err.source().source()`, …; an error has a text, so the list is not empty (the first case is not
reached for the errors of this crate, see `LawfulText.ne_nil` in Verif/Proof/Text.lean). -/
def abort (verbose : Bool) (chain : List String) (debug : String) : CliOutcome where
  stdout := ""
  stderr :=
    match chain with
    | [] => ""
    | err :: sources =>
      "ERROR: " ++ err ++ "\n" ++
      (if sources.isEmpty then "" else "\nCaused by:\n" ++ causeLines sources 0) ++
      (if verbose then "\nDEBUG OUTPUT:\n" ++ debug ++ "\n" else "")
  code := 1

/-- wadec-cli/src/main.rs:20-28 `main`, after `Cli::parse()`; `input` is the result of
`cli.input.open()`. -/
def cliMain (t : CliText) (verbose : Bool) (input : Except IoError R) : CliOutcome :=
  match input with
  | .error e => abort verbose (t.io e) (t.debugIo e)
  | .ok r =>
    match (decodeModule r).1 with
    | .ok m => ⟨if verbose then t.debugModule m ++ "\n" else "", "", 0⟩
    | .err e => abort verbose (ErrText.chain t.io e) (t.debugErr e)
    -- a panic prints a message and exits with 101; out of fuel never happens
    | .panic => ⟨"", "panic", 101⟩
    | .fuel => ⟨"", "", 101⟩

end Wadec
