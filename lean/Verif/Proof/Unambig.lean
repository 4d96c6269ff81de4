import Verif.Proof.Calculus

/-! Unambiguity: what a decoder `Runs` on is determined by the input. -/

namespace Wadec

open LawfulRead

theorem avail_ofBytes (bs : List UInt8) : avail (Src.ofBytes bs) = bs := by
  show Src.bytes [.data bs] = bs
  cases bs <;> simp [Src.bytes]

theorem fin_ofBytes (bs : List UInt8) : fin (Src.ofBytes bs) = .eof := by
  show Src.ending [.data bs] = .eof
  cases bs <;> simp [Src.ending]

theorem Runs.unique_at {R ε α : Type} [LawfulRead R] {d : Dec R ε α} {b1 b2 : List UInt8} {v1 v2 : α}
    (h1 : Runs d b1 v1) (h2 : Runs d b2 v2) (r : R) {t1 t2 : List UInt8} (e1 : avail r = b1 ++ t1)
    (e2 : avail r = b2 ++ t2) : b1 = b2 ∧ v1 = v2 := by
  obtain ⟨r1, g1, a1⟩ := h1 r t1 e1
  obtain ⟨r2, g2, a2⟩ := h2 r t2 e2
  rw [g1] at g2
  simp only [Prod.mk.injEq, Res.ok.injEq] at g2
  obtain ⟨rfl, rfl⟩ := g2
  refine ⟨?_, rfl⟩
  have := adv_avail a1
  rw [adv_avail a2] at this
  exact (List.append_cancel_right this).symm

theorem Runs.unique {ε α : Type} {d : Dec Src ε α} {b1 b2 t1 t2 : List UInt8} {v1 v2 : α}
    (h1 : Runs d b1 v1) (h2 : Runs d b2 v2) (h : b1 ++ t1 = b2 ++ t2) : b1 = b2 ∧ v1 = v2 :=
  h1.unique_at h2 (Src.ofBytes (b1 ++ t1)) (avail_ofBytes _) (by rw [avail_ofBytes, h])

theorem Fails.withTake {R ε α : Type} [LawfulRead R] {d : Dec (Take R) ε α} {n : Nat}
    {bs : List UInt8} {e : ε} (hn : bs.length ≤ n) (hd : Fails d bs e) :
    Fails (Dec.withTake n d) bs e := by
  intro r rest h
  obtain ⟨t, h1⟩ := hd { limit := n, inner := r } (rest.take (n - bs.length))
    (by simp only [avail]; rw [h, List.take_append, List.take_of_length_le hn])
  exact ⟨t.inner, by simp only [Dec.withTake, h1]⟩

end Wadec
