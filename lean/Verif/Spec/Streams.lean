import Verif.Model.Module

/-! Programs that use `decode_module` on a part of a longer stream (not in /repo). -/

namespace Wadec.Spec

variable {R : Type} [Read R]

/-- Modules of known lengths that follow one another in a stream: each is decoded through `stream.by_ref().take(n)`, and what
the decoder has left of its `n` bytes is skipped with `read_to_end`. -/
def decodeArchive : List Nat → R → List (Res DecodeModuleError Module) × R
  | [], r => ([], r)
  | n :: ns, r =>
    let o := decodeModule ({ limit := n, inner := r } : Take R)
    let skipped := readToEnd o.2
    let more := decodeArchive ns skipped.2.inner
    (o.1 :: more.1, more.2)

/-- A program that looks at the first `k` bytes of a stream, and then decodes it from the beginning: the bytes are put back
in front with `Cursor::new(bytes).chain(stream)`.  `none` if there are not as many bytes. -/
def peekThenDecode (k : Nat) (r : R) : Option (List UInt8 × Res DecodeModuleError Module) :=
  match readExact k r with
  | (.ok bs, r') => some (bs, (decodeModule ({ first := bs, inner := r' } : Chain R)).1)
  | _ => none

end Wadec.Spec
