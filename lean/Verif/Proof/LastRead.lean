import Verif.Spec.AnyReader
import Verif.Proof.CalmAll

/-! The calls of `read` on an arbitrary implementation: none behind an end (C56, C57). -/

namespace Wadec

variable {σ : Type} {I : Impl σ} {ρ : List Ev → Nat}

theorem rec_read {b n : Nat} (r : Rec I ρ b) : Read.read n r =
    ((I.read n r.state).1, ⟨(I.read n r.state).2, r.calls ++ [Ev.ofResult (I.read n r.state).1]⟩) := rfl

theorem watched_calls {b : Nat} : Watched (R := Rec I ρ b) (fun r => ∀ e ∈ r.calls, ¬ e.Stops)
    (fun r => ∀ before e after, r.calls = before ++ e :: after → e.Stops → after = []) where
  ok := by
    intro r h before e after hc he
    exact absurd he (h e (by rw [hc]; simp))
  data := by
    intro n r c cs r' g hn hr
    rw [rec_read] at hr
    generalize I.read n r.state = o at hr
    obtain ⟨o1, s1⟩ := o
    cases hr
    intro e he
    simp only [List.mem_append, List.mem_singleton] at he
    rcases he with he | rfl
    · exact g e he
    · rintro (h | ⟨x, h, _⟩) <;> cases h
  int := by
    intro n r r' g hn hr
    rw [rec_read] at hr
    generalize I.read n r.state = o at hr
    obtain ⟨o1, s1⟩ := o
    cases hr
    intro e he
    simp only [List.mem_append, List.mem_singleton] at he
    rcases he with he | rfl
    · exact g e he
    · rintro (h | ⟨x, h, hx⟩)
      · cases h
      · cases h
        exact hx rfl
  stop := by
    intro n r g hn before e after hc he
    rw [rec_read] at hc
    simp only at hc
    rcases List.eq_nil_or_concat after with h | ⟨l, x, h⟩
    · exact h
    · subst h
      have h1 : r.calls = before ++ e :: l := by
        have : before ++ e :: (l ++ [x]) = (before ++ e :: l) ++ [x] := by simp
        rw [List.concat_eq_append, this] at hc
        exact (List.append_inj' hc rfl).1
      exact absurd he (g e (by rw [h1]; simp))
  reserve := fun h => h

/-- A call of `read` that has returned an end of file or a failure is the last one. -/
theorem last_call {s s' : σ} {res : Res DecodeModuleError Module} {calls : List Ev}
    (h : Returns I ρ s res calls s') {before after : List Ev} {e : Ev}
    (hc : calls = before ++ e :: after) (he : e.Stops) : after = [] := by
  obtain ⟨b, h, _⟩ := h
  have := module_calm (watched_calls (I := I) (ρ := ρ) (b := b)) ⟨s, []⟩ (by intro e he; cases he)
  rw [h] at this
  exact this before e after hc he

end Wadec
