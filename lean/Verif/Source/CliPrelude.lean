import Verif.Model.Cli
import Verif.Source.Module

/-! What the mechanical translation of wadec-cli/src/main.rs (tools/rs2lean_cli.py) refers to: the
process with its two output streams, `println!`, `exit`, and `std::error::Error`. -/

namespace Wadec.Source

/-- How a computation of the process ends: it returns, it calls `std::process::exit`
(wadec-cli/src/main.rs:50), it panics, or it exhausts the step budget (model artefact). -/
inductive Exit (α : Type) where
  | ret (a : α)
  | exit (code : Nat)
  | panic
  | fuel

/-- The output streams.  `faults` says what becomes of the calls of `println!`/`eprintln!` to come
(wadec-cli/src/main.rs:26, 31, 40, 42, 47): `none`, the text is written; `some k`, only its first `k`
characters are, and the macro panics.  When the list is exhausted, everything is written. -/
structure Streams where
  stdout : String
  stderr : String
  faults : List (Option Nat)

/-- A computation of the process (wadec-cli/src/main.rs:20-51). -/
def Proc (α : Type) : Type := Streams → Exit α × Streams

/-- sequencing of statements, wadec-cli/src/main.rs:20-51 -/
instance : Monad Proc where
  pure a := fun s => (.ret a, s)
  bind d f := fun s =>
    match d s with
    | (.ret a, s') => f a s'
    | (.exit n, s') => (.exit n, s')
    | (.panic, s') => (.panic, s')
    | (.fuel, s') => (.fuel, s')

/-- std `println!` (wadec-cli/src/main.rs:26) -/
def println (text : String) : Proc Unit := fun s =>
  match s.faults with
  | some k :: fs =>
    (.panic, { s with stdout := s.stdout ++ String.ofList ((text ++ "\n").toList.take k), faults := fs })
  | none :: fs => (.ret (), { s with stdout := s.stdout ++ (text ++ "\n"), faults := fs })
  | [] => (.ret (), { s with stdout := s.stdout ++ (text ++ "\n") })

/-- std `eprintln!` (wadec-cli/src/main.rs:31, 40, 42, 47) -/
def eprintln (text : String) : Proc Unit := fun s =>
  match s.faults with
  | some k :: fs =>
    (.panic, { s with stderr := s.stderr ++ String.ofList ((text ++ "\n").toList.take k), faults := fs })
  | none :: fs => (.ret (), { s with stderr := s.stderr ++ (text ++ "\n"), faults := fs })
  | [] => (.ret (), { s with stderr := s.stderr ++ (text ++ "\n") })

/-- std `std::process::exit` (wadec-cli/src/main.rs:50) -/
def exit {α : Type} (code : Nat) : Proc α := fun s => (.exit code, s)

/-- A `&dyn Error`: what `{err}` and `{err:#?}` print, and `source()` (wadec-cli/src/main.rs:30-47). -/
inductive DynError where
  | mk (text : String) (debug : String) (source : Option DynError)

/-- `{err}`, wadec-cli/src/main.rs:31, 42 -/
def DynError.text : DynError → String | .mk t _ _ => t
/-- `{err:#?}`, wadec-cli/src/main.rs:47 -/
def DynError.debug : DynError → String | .mk _ d _ => d
/-- `err.source()`, wadec-cli/src/main.rs:34, 37 -/
def DynError.source : DynError → Option DynError | .mk _ _ s => s

/-- The sources of an error with the given texts (their debug texts are not printed). -/
def sourcesOf : List String → Option DynError
  | [] => none
  | x :: xs => some (.mk x "" (sourcesOf xs))

/-- std `Error`, for the two error types that reach `abort` (wadec-cli/src/main.rs:22, 23) -/
class StdError (E : Type) where
  dyn : CliText → E → DynError
export StdError (dyn)

/-- the error whose text and whose sources' texts are `chain` -/
def ofChain (debug : String) (chain : List String) : DynError :=
  .mk (chain.headD "") debug (sourcesOf chain.tail)

/-- `io::Error` (wadec-cli/src/main.rs:22) -/
instance : StdError IoError := ⟨fun t e => ofChain (t.debugIo e) (t.io e)⟩
/-- `DecodeModuleError` (wadec-cli/src/main.rs:23); its texts are those of Model/Display.lean. -/
instance : StdError DecodeModuleError := ⟨fun t e => ofChain (t.debugErr e) (ErrText.chain t.io e)⟩

/-- std `Display` -/
class Display (α : Type) where
  display : CliText → α → String
export Display (display)
/-- wadec-cli/src/main.rs:31, 42 -/
instance : Display DynError := ⟨fun _ e => e.text⟩
/-- wadec-cli/src/main.rs:42 -/
instance : Display Nat := ⟨fun _ n => toString n⟩

/-- std `Debug` with `{:#?}` -/
class Pretty (α : Type) where
  pretty : CliText → α → String
export Pretty (pretty)
/-- wadec-cli/src/main.rs:47 -/
instance : Pretty DynError := ⟨fun _ e => e.debug⟩
/-- wadec-cli/src/main.rs:26 -/
instance : Pretty Module := ⟨fun t m => t.debugModule m⟩

/-- patharg `InputArg` (wadec-cli/src/main.rs:12): what `open()` returns. -/
structure InputArg (R : Type) where
  opened : Except IoError R

/-- wadec-cli/src/main.rs:8-18 -/
structure Cli (R : Type) where
  input : InputArg R
  verbose : Bool

variable {R : Type} [Read R]

/-- `wadec::decode_module(input)` (wadec-cli/src/main.rs:23) -/
def decode (r : R) : Proc (Except DecodeModuleError Module) := fun s =>
  match (decode_module r).1 with
  | .ok m => (.ret (.ok m), s)
  | .err e => (.ret (.error e), s)
  | .panic => (.panic, s)
  | .fuel => (.fuel, s)

/-- std `Result::unwrap_or_else` (wadec-cli/src/main.rs:22, 23) -/
def unwrap_or_else {ε α : Type} (d : Proc (Except ε α)) (f : ε → Proc α) : Proc α := do
  match ← d with
  | .ok a => pure a
  | .error e => f e

/-- `while let` with a step budget, wadec-cli/src/main.rs:35 -/
def Fuel.procForIn {γ : Type} (f : Unit → γ → Proc (ForInStep γ)) : Nat → γ → Proc γ
  | 0, _ => fun s => (.fuel, s)
  | n + 1, x => do
    match ← f () x with
    | .done x => pure x
    | .yield x => Fuel.procForIn f n x

/-- `while let`, as above -/
instance : ForIn Proc Fuel Unit := ⟨fun x s f => Fuel.procForIn f x.n s⟩

/-- What the process leaves behind; a panic is exit status 101 (its message on stderr is not modelled). -/
def outcome (d : Proc Unit) (faults : List (Option Nat)) : CliOutcome :=
  match d ⟨"", "", faults⟩ with
  | (.ret _, s) => ⟨s.stdout, s.stderr, 0⟩
  | (.exit n, s) => ⟨s.stdout, s.stderr, n⟩
  | (.panic, s) => ⟨s.stdout, s.stderr, 101⟩
  | (.fuel, s) => ⟨s.stdout, s.stderr, 101⟩

end Wadec.Source
