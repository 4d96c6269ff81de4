import Verif.Source.CliPrelude

/-! Generated by tools/rs2lean_cli.py from wadec-cli/src/main.rs.
Do not edit.  The numbers in the comments are the source lines. -/

namespace Wadec.Source

variable {R : Type} [Read R]

/-- wadec-cli/src/main.rs:30 -/
def abort (t : CliText) (fuel : Nat) {T : Type} (cli : Cli R) (err : DynError) : Proc T := do
  -- 31
  eprintln ("ERROR: " ++ display t err)
  -- 33
  let mut sources : List DynError := []
  -- 34
  let mut current := err.source
  -- 35
  for _ in Fuel.mk fuel do
    match current with
    | some cause =>
      -- 36
      sources := sources ++ [cause]
      -- 37
      current := cause.source
    | _ => break
  -- 39
  if !(sources.isEmpty) then
    -- 40
    eprintln ("\nCaused by:")
    -- 41
    for (i, cause) in enumerate sources do
      -- 42
      eprintln ("    " ++ display t i ++ ": " ++ display t cause)
  -- 46
  if cli.verbose then
    -- 47
    eprintln ("\nDEBUG OUTPUT:\n" ++ pretty t err)
  -- 50
  exit 1

/-- wadec-cli/src/main.rs:20 -/
def main (t : CliText) (fuel : Nat) (cli : Cli R) : Proc Unit := do
  -- 21
  let cli := cli
  -- 22
  let input ← unwrap_or_else (pure cli.input.opened) (fun e => abort t fuel cli (dyn t e))
  -- 23
  let module ← unwrap_or_else (decode input) (fun e => abort t fuel cli (dyn t e))
  -- 25
  if cli.verbose then
    -- 26
    println (pretty t module)

end Wadec.Source
