import Verif.Proof.Copies
import Verif.Props.Equality
import Verif.Model.DebugCore

/-! C85: copies of decoded values, and indices as keys of hash maps. -/

namespace Wadec

open Spec

/-- C85: the clone of an instruction is that instruction: nothing inside it, at any depth, is lost, changed or moved, and the
bits of its constants are kept, also those of a NaN. -/
theorem c85_instr (i : Instr) : RClone.clone i = i := Cloned.same i

/-- C85: the same for types, block types and handlers, and lists of all of them. -/
theorem c85_types (t : RecType) (s : SubType) (c : CompType) (b : BlockType) (h : Catch) (l : List Instr) :
    RClone.clone t = t ∧ RClone.clone s = s ∧ RClone.clone c = c ∧ RClone.clone b = b ∧ RClone.clone h = h ∧ RClone.clone l = l :=
  ⟨Cloned.same t, Cloned.same s, Cloned.same c, Cloned.same b, Cloned.same h, Cloned.same l⟩

/-- C85: a copy compares equal to its original exactly if that compares equal to itself; that is, with no NaN in it (C47). -/
theorem c85_eq (i : Instr) : Instr.eq (RClone.clone i) i = Instr.eq i i := by rw [c85_instr]

/-- C85: and prints the same. -/
theorem c85_debug (t : StdText) (i : Instr) : (RClone.clone i).dbg t = i.dbg t := by rw [c85_instr]

/-- A NaN with a payload, two levels down. -/
example : RClone.clone (Instr.Block .Empty [.If .Empty [] (some [.F32Const 0x7FC12345])]) =
    .Block .Empty [.If .Empty [] (some [.F32Const 0x7FC12345])] := by simp only [RClone.clone, cloneInstr, cloneInstrs, cloneInstrsOpt]

/-! ### Hashing -/

/-- What a hash map asks of its keys, of a type of wrapped numbers. -/
structure Key (α : Type) [RHash α] [DecidableEq α] (mk : UInt32 → α) : Prop where
  /-- a hasher is fed the number and nothing else -/
  feeds : ∀ {H : Type} [Hasher H] (s : H) (n : UInt32), RHash.hash (mk n) s = Hasher.write_u32 s n
  /-- two keys are equal if and only if no hasher tells them apart -/
  agrees : ∀ n m, mk n = mk m ↔ ∀ (H : Type) [Hasher H] (s : H), RHash.hash (mk n) s = RHash.hash (mk m) s
  /-- whatever the hasher: looking at those entries only whose key has the hash of the wanted one finds the entry for the wanted one -/
  finds : ∀ {H β : Type} [Hasher H] (s : H) (l : List (α × β)) (k : α),
    l.find? (fun e => Hasher.finish (RHash.hash e.1 s) = Hasher.finish (RHash.hash k s) ∧ e.1 = k) = l.find? (fun e => e.1 = k)

/-- A hasher that does nothing but remember. -/
instance recorder : Hasher (List UInt32) := ⟨fun l n => l ++ [n], fun l => l.length.toUInt64⟩

theorem key_of {α : Type} [RHash α] [DecidableEq α] {mk : UInt32 → α}
    (h : ∀ {H : Type} [Hasher H] (s : H) (n : UInt32), RHash.hash (mk n) s = Hasher.write_u32 s n) : Key α mk := by
  refine ⟨h, fun n m => ⟨fun e _ _ _ => by rw [e], fun e => ?_⟩, fun s l k => ?_⟩
  · have := e (List UInt32) []
    rw [h, h] at this
    simp only [Hasher.write_u32, List.nil_append, List.cons.injEq, and_true] at this
    rw [this]
  · congr 1
    funext e
    by_cases he : e.1 = k <;> simp [he]

/-- C85: the ten types of indices can be keys of hash maps. -/
theorem c85_keys : Key TypeIdx .mk ∧ Key FuncIdx .mk ∧ Key TableIdx .mk ∧ Key MemIdx .mk ∧ Key GlobalIdx .mk ∧ Key ElemIdx .mk ∧
    Key DataIdx .mk ∧ Key LocalIdx .mk ∧ Key LabelIdx .mk ∧ Key TagIdx .mk :=
  ⟨key_of fun _ _ => rfl, key_of fun _ _ => rfl, key_of fun _ _ => rfl, key_of fun _ _ => rfl, key_of fun _ _ => rfl,
    key_of fun _ _ => rfl, key_of fun _ _ => rfl, key_of fun _ _ => rfl, key_of fun _ _ => rfl, key_of fun _ _ => rfl⟩

/-- The recorder sees the number of a function index. -/
example : RHash.hash (FuncIdx.mk 7) ([1] : List UInt32) = [1, 7] := rfl

/-- Equal hashes do not confuse the look-up: this hasher says 1 for every key. -/
example : [(FuncIdx.mk 3, "a"), (FuncIdx.mk 7, "b")].find? (fun e => Hasher.finish (RHash.hash e.1 ([] : List UInt32)) =
    Hasher.finish (RHash.hash (FuncIdx.mk 7) ([] : List UInt32)) ∧ e.1 = FuncIdx.mk 7) = some (FuncIdx.mk 7, "b") := by
  rw [c85_keys.2.1.finds]; decide

end Wadec
