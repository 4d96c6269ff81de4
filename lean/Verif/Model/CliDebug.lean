import Verif.Model.Cli
import Verif.Model.DebugErrors

/-! The texts that wadec-cli/src/main.rs prints with `{:#?}`. -/

namespace Wadec

/-- wadec-cli/src/main.rs:26, 47 `{module:#?}`, `{err:#?}`; what is left open are the texts of the standard library
(`T`) and the `Display` texts of I/O errors and their sources (`io`). -/
def CliText.std (T : StdText) (io : IoError → List String) : CliText where
  io := io
  debugIo e := String.ofList (dbg T e).pretty
  debugErr e := String.ofList (dbg T e).pretty
  debugModule m := String.ofList (dbg T m).pretty

end Wadec
