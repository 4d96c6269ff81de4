import Verif.Model.Io

/-! What the number of steps is measured against (C69): bytes and interruptions. -/

namespace Wadec

/-- A reader of which it is known how many bytes it can still deliver and how often it can still report `Interrupted`. -/
class Metered (R : Type) extends Read R where
  /-- bytes it can still deliver -/
  bytes : R → Nat
  /-- how often it can still report `Interrupted` -/
  hiccups : R → Nat
  read_ok : ∀ {n r bs r'}, read n r = (.ok bs, r') → bytes r' + bs.length ≤ bytes r ∧ hiccups r' ≤ hiccups r
  read_int : ∀ {n r r'}, read n r = (.error .interrupted, r') → bytes r' ≤ bytes r ∧ hiccups r' < hiccups r
  read_err : ∀ {n r e r'}, read n r = (.error e, r') → bytes r' ≤ bytes r ∧ hiccups r' ≤ hiccups r
  reserve_bytes : ∀ n r, bytes (reserve n r) = bytes r
  reserve_hiccups : ∀ n r, hiccups (reserve n r) = hiccups r

/-- the bytes of a script -/
def Src.total : List Ev → Nat
  | [] => 0
  | .data bs :: t => bs.length + Src.total t
  | .fail _ :: t => Src.total t

/-- the interruptions of a script -/
def Src.interruptions : List Ev → Nat
  | [] => 0
  | .data _ :: t => Src.interruptions t
  | .fail .interrupted :: t => 1 + Src.interruptions t
  | .fail _ :: t => Src.interruptions t

instance : Metered Src where
  bytes s := Src.total s.evs
  hiccups s := Src.interruptions s.evs
  read_ok := by
    intro n ⟨evs, log⟩ bs r' h
    simp only [Read.read, Src.read] at h
    match evs with
    | [] => cases h; exact ⟨by simp [Src.total], Nat.le_refl _⟩
    | .fail e :: t => cases h
    | .data ds :: t =>
      simp only at h
      split at h <;> cases h
      · exact ⟨by simp only [Src.total]; omega, Nat.le_refl _⟩
      · refine ⟨?_, Nat.le_refl _⟩
        simp only [Src.total, List.length_take, List.length_drop]; omega
  read_int := by
    intro n ⟨evs, log⟩ r' h
    simp only [Read.read, Src.read] at h
    match evs with
    | [] => cases h
    | .fail e :: t => cases h; exact ⟨Nat.le_refl _, by simp only [Src.interruptions]; omega⟩
    | .data ds :: t =>
      simp only at h
      split at h <;> cases h
  read_err := by
    intro n ⟨evs, log⟩ e r' h
    simp only [Read.read, Src.read] at h
    match evs with
    | [] => cases h
    | .fail e :: t =>
      cases h
      refine ⟨Nat.le_refl _, ?_⟩
      cases e <;> simp only [Src.interruptions] <;> omega
    | .data ds :: t =>
      simp only at h
      split at h <;> cases h
  reserve_bytes _ _ := rfl
  reserve_hiccups _ _ := rfl

instance {R : Type} [Metered R] : Metered (Take R) where
  bytes t := Metered.bytes t.inner
  hiccups t := Metered.hiccups t.inner
  read_ok := by
    intro n ⟨l, i⟩ bs r' h
    simp only [Read.read, Take.read] at h
    split at h
    · cases h; exact ⟨by simp, Nat.le_refl _⟩
    · split at h <;> rename_i hr <;> cases h
      exact Metered.read_ok hr
  read_int := by
    intro n ⟨l, i⟩ r' h
    simp only [Read.read, Take.read] at h
    split at h
    · cases h
    · split at h <;> rename_i hr <;> cases h
      exact Metered.read_int hr
  read_err := by
    intro n ⟨l, i⟩ e r' h
    simp only [Read.read, Take.read] at h
    split at h
    · cases h
    · split at h <;> rename_i hr <;> cases h
      exact Metered.read_err hr
  reserve_bytes n t := Metered.reserve_bytes n t.inner
  reserve_hiccups n t := Metered.reserve_hiccups n t.inner

instance {R : Type} [Metered R] : Metered (Chain R) where
  bytes c := c.first.length + Metered.bytes c.inner
  hiccups c := Metered.hiccups c.inner
  read_ok := by
    intro n ⟨f, i⟩ bs r' h
    simp only [Read.read, Chain.read] at h
    cases f with
    | nil =>
      simp only at h
      cases hr : Read.read n i with
      | mk res i' =>
        rw [hr] at h
        cases h
        have := Metered.read_ok hr
        simp only [List.length_nil]
        omega
    | cons b f =>
      simp only at h
      cases h
      simp only [List.length_take, List.length_drop]
      omega
  read_int := by
    intro n ⟨f, i⟩ r' h
    simp only [Read.read, Chain.read] at h
    cases f with
    | nil =>
      simp only at h
      cases hr : Read.read n i with
      | mk res i' =>
        rw [hr] at h
        cases h
        have := Metered.read_int hr
        simp only [List.length_nil]
        omega
    | cons b f => cases h
  read_err := by
    intro n ⟨f, i⟩ e r' h
    simp only [Read.read, Chain.read] at h
    cases f with
    | nil =>
      simp only at h
      cases hr : Read.read n i with
      | mk res i' =>
        rw [hr] at h
        cases h
        have := Metered.read_err hr
        simp only [List.length_nil]
        omega
    | cons b f => cases h
  reserve_bytes n c := by simp only [Read.reserve]; rw [Metered.reserve_bytes]
  reserve_hiccups n c := Metered.reserve_hiccups n c.inner

/-- A reader of which it is known how many bytes have gone: a call of `read` takes no more than it delivers. -/
class Drains (R : Type) extends Read R where
  /-- bytes that are still there -/
  stock : R → Nat
  read_ok : ∀ {n r bs r'}, read n r = (.ok bs, r') → stock r ≤ stock r' + bs.length
  read_err : ∀ {n r e r'}, read n r = (.error e, r') → stock r ≤ stock r'
  reserve_stock : ∀ n r, stock (reserve n r) = stock r

instance : Drains Src where
  stock s := Src.total s.evs
  read_ok := by
    intro n ⟨evs, log⟩ bs r' h
    simp only [Read.read, Src.read] at h
    match evs with
    | [] => cases h; simp [Src.total]
    | .fail e :: t => cases h
    | .data ds :: t =>
      simp only at h
      split at h <;> cases h
      · simp only [Src.total]; omega
      · simp only [Src.total, List.length_take, List.length_drop]; omega
  read_err := by
    intro n ⟨evs, log⟩ e r' h
    simp only [Read.read, Src.read] at h
    match evs with
    | [] => cases h
    | .fail e :: t => cases h; exact Nat.le_refl _
    | .data ds :: t =>
      simp only at h
      split at h <;> cases h
  reserve_stock _ _ := rfl

/-- the bytes of the reader inside -/
instance {R : Type} [Drains R] : Drains (Take R) where
  stock t := Drains.stock t.inner
  read_ok := by
    intro n ⟨l, i⟩ bs r' h
    simp only [Read.read, Take.read] at h
    split at h
    · cases h; exact Nat.le_add_right _ _
    · split at h <;> rename_i hr <;> cases h
      exact Drains.read_ok hr
  read_err := by
    intro n ⟨l, i⟩ e r' h
    simp only [Read.read, Take.read] at h
    split at h
    · cases h
    · split at h <;> rename_i hr <;> cases h
      exact Drains.read_err hr
  reserve_stock n t := Drains.reserve_stock n t.inner

/-- the bytes of the reader inside -/
instance {R : Type} [Drains R] : Drains (Chain R) where
  stock c := Drains.stock c.inner
  read_ok := by
    intro n ⟨f, i⟩ bs r' h
    simp only [Read.read, Chain.read] at h
    cases f with
    | nil =>
      simp only at h
      cases hr : Read.read n i with
      | mk res i' => rw [hr] at h; cases h; exact Drains.read_ok hr
    | cons b f => simp only at h; cases h; exact Nat.le_add_right _ _
  read_err := by
    intro n ⟨f, i⟩ e r' h
    simp only [Read.read, Chain.read] at h
    cases f with
    | nil =>
      simp only at h
      cases hr : Read.read n i with
      | mk res i' => rw [hr] at h; cases h; exact Drains.read_err hr
    | cons b f => cases h
  reserve_stock n c := Drains.reserve_stock n c.inner

end Wadec
