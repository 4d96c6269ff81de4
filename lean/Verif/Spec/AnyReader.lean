import Verif.Model.Module
import Verif.Spec.Reader

/-! Arbitrary implementations of `std::io::Read` (C56).

`Src` and the other lawful readers describe a reader by the bytes it delivers.  An `impl Read` in Rust
is an arbitrary state machine: what a call returns may depend on the buffer size, on earlier calls and
on the outside world (which is part of the state), and it may go on after an end of file or an error. -/

namespace Wadec

/-- An implementation of `std::io::Read` with state `σ`.  The only obligation of `read` is the one the
trait states: never to report more bytes than the buffer holds. -/
structure Impl (σ : Type) where
  read : Nat → σ → Except IoError (List UInt8) × σ
  fits : ∀ {n s bs s'}, read n s = (.ok bs, s') → bs.length ≤ n

/-- The result of one call of `read`. -/
def Ev.ofResult : Except IoError (List UInt8) → Ev
  | .ok bs => .data bs
  | .error e => .fail e

/-- The result of a call of `read` that is an end of file or a failure (`Interrupted` only asks to try
again). -/
def Ev.Stops (e : Ev) : Prop := e = .data [] ∨ ∃ x, e = .fail x ∧ x ≠ .interrupted

/-- The implementation `I` under observation: its state, and the results of all calls of `read` so
far.  `sizes` says which buffers `read_to_end` offers, depending on the results so far (std's choice).
`budget` bounds the loops of the model (model artefact). -/
structure Rec {σ : Type} (I : Impl σ) (sizes : List Ev → Nat) (budget : Nat) where
  state : σ
  calls : List Ev

instance {σ : Type} {I : Impl σ} {sizes : List Ev → Nat} {budget : Nat} : Read (Rec I sizes budget) where
  read n r :=
    match I.read n r.state with
    | (res, s') => (res, ⟨s', r.calls ++ [Ev.ofResult res]⟩)
  weight _ := budget
  reserve _ r := r
  room r := sizes r.calls

/-- A reader that answers by a script, like `Src`, and remembers its answers (`past`); `sizes` and
`budget` as for `Rec`. -/
structure Script (sizes : List Ev → Nat) (budget : Nat) where
  past : List Ev
  evs : List Ev

instance {sizes : List Ev → Nat} {budget : Nat} : Read (Script sizes budget) where
  read n t :=
    match Src.read n ⟨t.evs, []⟩ with
    | (res, s) => (res, ⟨t.past ++ [Ev.ofResult res], s.evs⟩)
  weight t := budget + Src.evsWeight t.evs
  reserve _ t := t
  room t := sizes t.past

/-- `decode_module`, given a reader `I` in state `s`, returns `res`, after calls of `read` with the
results `calls`, leaving the reader in state `s'`, if `read_to_end` picks its buffers by `sizes`. -/
def Returns {σ : Type} (I : Impl σ) (sizes : List Ev → Nat) (s : σ) (res : Res DecodeModuleError Module)
    (calls : List Ev) (s' : σ) : Prop :=
  ∃ budget, decodeModule (⟨s, []⟩ : Rec I sizes budget) = (res, ⟨s', calls⟩) ∧ res ≠ .fuel

/-- `calls` are the results of successive calls of `read` (with non-empty buffers) from state `s`. -/
inductive Calls {σ : Type} (I : Impl σ) : σ → List Ev → σ → Prop
  | nil {s : σ} : Calls I s [] s
  | snoc {s s' s'' : σ} {c : List Ev} {n : Nat} {res : Except IoError (List UInt8)} :
      Calls I s c s' → 0 < n → I.read n s' = (res, s'') → Calls I s (c ++ [Ev.ofResult res]) s''

/-- In state `s` the implementation delivers the bytes `bs` and then ends with `x`, within `k` calls,
whatever the sizes of the (non-empty) buffers are; in which chunks, and where it reports `Interrupted`,
may depend on them.  Nothing is said about calls behind the end. -/
def Delivers {σ : Type} (I : Impl σ) : Nat → σ → List UInt8 → End → Prop
  | 0, _, _, _ => False
  | k + 1, s, bs, x => ∀ n, 0 < n →
    match I.read n s with
    | (.ok [], _) => bs = [] ∧ x = .eof
    | (.ok (b :: c), s') => ∃ rest, bs = b :: c ++ rest ∧ Delivers I k s' rest x
    | (.error .interrupted, s') => Delivers I k s' bs x
    | (.error e, _) => bs = [] ∧ x = .fail e

/-- The implementation does not go on for ever: `μ` goes down with every chunk of data and with every
`Interrupted`, and never up. -/
def WindsDown {σ : Type} (I : Impl σ) (μ : σ → Nat) : Prop :=
  ∀ n s, 0 < n →
    match I.read n s with
    | (.ok [], s') => μ s' ≤ μ s
    | (.ok (_ :: _), s') => μ s' < μ s
    | (.error .interrupted, s') => μ s' < μ s
    | (.error _, s') => μ s' ≤ μ s

end Wadec
