import Verif.Proof.Pushes
import Verif.Proof.SpendsAll
import Verif.Props.Resources

/-! C69: the work is linear in the input.

`Counted.decodeModule push` is `decode_module` with a counter (Verif/Model/StepsBase.lean says what a step is); `push` is the price of
pushing one local.  `Metered.bytes` and `Metered.hiccups`: the bytes and the `Interrupted` reports a reader still has in it. -/

namespace Wadec

open Spec
open Counted (pushed)

/-- C69: counting changes nothing: result and reader are those of `decode_module`. -/
theorem c69_same {R : Type} [Read R] (push : Nat) (r : R) : (Counted.decodeModule push r).1 = decodeModule r :=
  Counted.same_decodeModule push r

/-- C69: whatever the outcome: at most 64 steps for every byte taken from the reader, one for every interruption, and 20; pushing
locals not counted. -/
theorem c69_linear {R : Type} [Metered R] {r r' : R} {res : Res DecodeModuleError Module} {n : Nat}
    (h : Counted.decodeModule 0 r = ((res, r'), n)) :
    n + 64 * Metered.bytes r' + Metered.hiccups r' ≤ 64 * Metered.bytes r + Metered.hiccups r + 20 := by
  have : Counted.Rate 64 := ⟨Nat.le_refl _⟩
  have := Counted.pays_module (K := 64) (push := 0) (by omega) r res r' n h
  simp only [Counted.worth] at this
  omega

/-- C69: and at least one for every byte taken from the reader. -/
theorem c69_atLeast {R : Type} [Drains R] (push : Nat) {r r' : R} {res : Res DecodeModuleError Module} {n : Nat}
    (h : Counted.decodeModule push r = ((res, r'), n)) : Drains.stock r ≤ Drains.stock r' + n := by
  have := Counted.sp_decodeModule push r
  rw [h] at this
  exact this

/-- C69: pushing locals counted at any price, still linear, with a factor to match: a function has less than 2³² locals. -/
theorem c69_priced {R : Type} [Metered R] (push : Nat) {r r' : R} {res : Res DecodeModuleError Module} {n : Nat}
    (h : Counted.decodeModule push r = ((res, r'), n)) :
    n + (64 + push * (2 ^ 32 - 1)) * Metered.bytes r' + Metered.hiccups r' ≤
      (64 + push * (2 ^ 32 - 1)) * Metered.bytes r + Metered.hiccups r + 20 := by
  have : Counted.Rate (64 + push * (2 ^ 32 - 1)) := ⟨by omega⟩
  have := Counted.pays_module (K := 64 + push * (2 ^ 32 - 1)) (push := push) (by omega) r res r' n h
  simp only [Counted.worth] at this
  omega

/-- C69: what a price for pushing adds on success: it is paid once for every local of every function of the module, and nothing else. -/
theorem c69_pushes {R : Type} [Read R] (push : Nat) {r r' : R} {m : Module} {n : Nat}
    (h : Counted.decodeModule 0 r = ((.ok m, r'), n)) :
    Counted.decodeModule push r = ((.ok m, r'), n + push * (m.funcs.map (fun f => f.locals.length)).sum) := by
  obtain ⟨h1, h2⟩ := Counted.extra_module (R := R) push r
  have h2 := h2 m r' n h
  rw [h] at h1
  refine Prod.ext h1 ?_
  simp only [pushed] at h2 ⊢
  omega

/-- the bytes of a script that delivers all of them without interruption -/
theorem total_bytes (bs : Bytes) : Src.total (Src.ofBytes bs).evs = bs.length ∧ Src.interruptions (Src.ofBytes bs).evs = 0 :=
  ⟨by simp only [Src.ofBytes, Src.total]; omega, rfl⟩

/-- C69: a byte string of length `k` takes at most `64 * k + 20` steps, pushing not counted. -/
theorem c69_bytes (bs : Bytes) : (Counted.decodeModule 0 (Src.ofBytes bs)).2 ≤ 64 * bs.length + 20 := by
  generalize hd : Counted.decodeModule 0 (Src.ofBytes bs) = o
  obtain ⟨⟨res, r'⟩, n⟩ := o
  have := c69_linear hd
  obtain ⟨t1, t2⟩ := total_bytes bs
  simp only [Metered.bytes, Metered.hiccups] at this ⊢
  omega

/-- C69: if it is a module, pushing adds the price of a push for every local of the module. -/
theorem c69_module {bs : Bytes} {m : Module} (hm : BModule bs m) :
    ∃ n r', n ≤ 64 * bs.length + 20 ∧ ∀ push, Counted.decodeModule push (Src.ofBytes bs) =
      ((.ok m, r'), n + push * (m.funcs.map (fun f => f.locals.length)).sum) := by
  obtain ⟨r', hr⟩ := (c18_bytes bs m).2 hm
  have h0 := c69_bytes bs
  have h1 := c69_same 0 (Src.ofBytes bs)
  generalize hd : Counted.decodeModule 0 (Src.ofBytes bs) = o at h0 h1
  obtain ⟨x, n⟩ := o
  simp only at h1 h0
  subst h1
  rw [hr] at hd
  exact ⟨n, r', h0, fun push => c69_pushes push hd⟩

/-- C69: why pushing locals has a price of its own: for every `k` there are 24 bytes that decode to a module and push `k` locals. -/
theorem c69_amplification (k : UInt32) : ∃ bs : Bytes, bs.length = 24 ∧ (∃ m, BModule bs m) ∧
    ∀ push, push * k.toNat ≤ (Counted.decodeModule push (Src.ofBytes bs)).2 ∧
      (Counted.decodeModule push (Src.ofBytes bs)).2 ≤ 64 * 24 + 20 + push * k.toNat := by
  obtain ⟨hl, m, r', h, hf⟩ := c43_amplification k
  generalize manyLocals k = bs at *
  have hm := (c18_bytes bs m).1 ⟨r', h⟩
  obtain ⟨n, r1, h1, h2⟩ := c69_module hm
  refine ⟨bs, hl, ⟨m, hm⟩, fun push => ?_⟩
  rw [h2, hf]
  simp only [List.map_cons, List.map_nil, List.sum_cons, List.sum_nil, List.length_replicate, Nat.add_zero]
  omega

/-- The sample module: 71 bytes. -/
example : (preamble ++ bytesA).length = 71 ∧ (Counted.decodeModule 0 (Src.ofBytes (preamble ++ bytesA))).2 = 526 ∧
    (Counted.decodeModule 1 (Src.ofBytes (preamble ++ bytesA))).2 = 528 := ⟨by decide, by decide +kernel, by decide +kernel⟩
/-- An input that announces 4294967295 types and then ends: few steps. -/
example : (Counted.decodeModule 0 (Src.ofBytes (preamble ++ [0x01, 0x05, 0xFF, 0xFF, 0xFF, 0xFF, 0x0F]))).2 = 71 := by
  decide +kernel
/-- At least a step for each of the bytes. -/
example : 71 ≤ Src.total (Counted.decodeModule 0 (Src.ofBytes (preamble ++ bytesA))).1.2.evs +
    (Counted.decodeModule 0 (Src.ofBytes (preamble ++ bytesA))).2 := by
  generalize hd : Counted.decodeModule 0 (Src.ofBytes (preamble ++ bytesA)) = o
  obtain ⟨⟨res, r'⟩, n⟩ := o
  have h := c69_atLeast 0 hd
  have h71 : (preamble ++ bytesA).length = 71 := by decide
  have ht := (total_bytes (preamble ++ bytesA)).1
  rw [h71] at ht
  simp only [Drains.stock] at h ⊢
  rwa [ht] at h
/-- Interruptions cost one step each. -/
example : (Counted.decodeModule 0 (⟨[.fail .interrupted, .data [0x00], .fail .interrupted, .fail .interrupted], []⟩ : Src)).2 = 9 := by
  decide +kernel

end Wadec
