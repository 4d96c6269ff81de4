import Verif.Model.Module
import Verif.Spec.Size

/-! C44: what is asked of the allocator, against what is read.

`Quiet d`: whatever `d` does to the reader is a sequence of reads (nothing is reserved).
`Lg c d c'`: starting with credit `c`, the number of reservations of `d` is at most the number of
bytes it reads plus `c`; if it succeeds, `c'` is left over. -/

namespace Wadec

variable {R ε ε' α β σ : Type} [Read R]

/-! ### Readers with a log -/

class Audit (R : Type) [Read R] where
  /-- the allocation requests so far -/
  log : R → List Nat
  /-- bytes that can still be read -/
  pot : R → Nat
  read_log : ∀ n r, log (Read.read n r).2 = log r
  read_pot : ∀ n r, pot (Read.read n r).2 ≤ pot r
  read_ok : ∀ n r bs r', Read.read n r = (.ok bs, r') → pot r' + bs.length ≤ pot r
  reserve_log : ∀ n r, log (Read.reserve n r) = log r ++ [n]
  reserve_pot : ∀ n r, pot (Read.reserve n r) = pot r

instance : Audit Src where
  log s := s.log
  pot s := Src.volume s.evs
  read_log n s := by
    simp only [Read.read, Src.read]
    split
    · rfl
    · rfl
    · split <;> rfl
  read_pot n s := by
    simp only [Read.read, Src.read]
    split
    · exact Nat.le_refl _
    · rename_i h; simp [h, Src.volume]
    · rename_i h
      split
      · simp [h, Src.volume]
      · simp [h, Src.volume]
  read_ok n s bs s' h := by
    simp only [Read.read, Src.read] at h
    split at h
    · cases h; simp
    · cases h
    · rename_i h'
      split at h
      · cases h
        simp [h', Src.volume]; omega
      · cases h
        simp [h', Src.volume]; omega
  reserve_log _ _ := rfl
  reserve_pot _ _ := rfl

instance [Audit R] : Audit (Take R) where
  log t := Audit.log t.inner
  pot t := Audit.pot t.inner
  read_log n t := by
    simp only [Read.read, Take.read]
    split
    · rfl
    · have := Audit.read_log (min n t.limit) t.inner
      split <;> rename_i h <;> rw [h] at this <;> exact this
  read_pot n t := by
    simp only [Read.read, Take.read]
    split
    · exact Nat.le_refl _
    · have := Audit.read_pot (min n t.limit) t.inner
      split <;> rename_i h <;> rw [h] at this <;> exact this
  read_ok n t bs t' h := by
    simp only [Read.read, Take.read] at h
    split at h
    · cases h; simp
    · have := Audit.read_ok (min n t.limit) t.inner
      split at h <;> rename_i h' <;> cases h
      exact this _ _ h'
  reserve_log n t := Audit.reserve_log n t.inner
  reserve_pot n t := Audit.reserve_pot n t.inner

instance [Audit R] : Audit (Chain R) where
  log t := Audit.log t.inner
  pot t := t.first.length + Audit.pot t.inner
  read_log n t := by
    simp only [Read.read, Chain.read]
    split
    · exact Audit.read_log n t.inner
    · rfl
  read_pot n t := by
    simp only [Read.read, Chain.read]
    split
    · rename_i h
      have := Audit.read_pot n t.inner
      simp [h]; exact this
    · rename_i h
      simp only [h, List.length_drop]
      omega
  read_ok n t bs t' h := by
    simp only [Read.read, Chain.read] at h
    split at h
    · rename_i h0
      cases h' : Read.read n t.inner with
      | mk res i =>
        rw [h'] at h
        cases h
        have := Audit.read_ok n t.inner _ _ h'
        simp [h0]; exact this
    · rename_i h0
      cases h
      simp only [h0, List.length_drop, List.length_take]
      omega
  reserve_log n t := Audit.reserve_log n t.inner
  reserve_pot n t := by
    have := Audit.reserve_pot n t.inner
    exact congrArg (t.first.length + ·) this

/-! ### Decoders that reserve nothing -/

def Quiet (d : Dec R ε α) : Prop :=
  ∀ (I : R → R → Prop), (∀ r, I r r) → (∀ a b c, I a b → I b c → I a c) →
    (∀ n r, 0 < n → I r (Read.read n r).2) → ∀ r, I r (d r).2

namespace Quiet

theorem pure {v : α} : Quiet (R := R) (ε := ε) (Pure.pure v) := fun _ h _ _ r => h r
theorem err {e : ε} : Quiet (R := R) (α := α) (Dec.err e) := fun _ h _ _ r => h r
theorem panic : Quiet (R := R) (ε := ε) (α := α) Dec.panic := fun _ h _ _ r => h r
theorem fuel : Quiet (R := R) (ε := ε) (α := α) Dec.outOfFuel := fun _ h _ _ r => h r

theorem bind {d : Dec R ε α} {f : α → Dec R ε β} (hd : Quiet d) (hf : ∀ v, Quiet (f v)) :
    Quiet (d >>= f) := by
  intro I h1 h2 h3 r
  have h := hd I h1 h2 h3 r
  simp only [Bind.bind, Dec.bind]
  cases hr : d r with
  | mk res r' =>
    rw [hr] at h
    cases res with
    | ok v => exact h2 _ _ _ h (hf v I h1 h2 h3 r')
    | _ => exact h

theorem mapErr {d : Dec R ε α} {f : ε → ε'} (hd : Quiet d) : Quiet (d.mapErr f) := by
  intro I h1 h2 h3 r
  have h := hd I h1 h2 h3 r
  simp only [Dec.mapErr]
  cases hr : d r with
  | mk res r' =>
    rw [hr] at h
    cases res <;> exact h

theorem ite {c : Prop} [Decidable c] {a b : Dec R ε α} (ha : Quiet a) (hb : Quiet b) :
    Quiet (if c then a else b) := by
  split <;> assumption

theorem orElse {d : Dec R ε α} {f : α → β} {g : Dec R ε' β} (hd : Quiet d) (hg : Quiet g) :
    Quiet (d.orElseDiscard f g) := by
  intro I h1 h2 h3 r
  have h := hd I h1 h2 h3 r
  simp only [Dec.orElseDiscard]
  cases hr : d r with
  | mk res r' =>
    rw [hr] at h
    cases res with
    | err e => exact h2 _ _ _ h (hg I h1 h2 h3 r')
    | _ => exact h

theorem withChain {b : UInt8} {d : Dec (Chain R) ε α} (hd : Quiet d) : Quiet (Dec.withChain b d) := by
  intro I h1 h2 h3 r
  refine hd (fun c c' => I c.inner c'.inner) (fun _ => h1 _) (fun _ _ _ => h2 _ _ _) ?_ ⟨[b], r⟩
  intro n c hn
  simp only [Read.read, Chain.read]
  split
  · exact h3 _ _ hn
  · exact h1 _

theorem readExactLoop : ∀ f n acc, Quiet (R := R) (readExactLoop f n acc)
  | 0, _, _ => fuel
  | f + 1, n, acc => by
    intro I h1 h2 h3 r
    simp only [Wadec.readExactLoop]
    split
    · exact h1 r
    · have := h3 n r (by omega)
      split <;> rename_i h <;> rw [h] at this
      · exact this
      · exact h2 _ _ _ this (Quiet.readExactLoop f _ _ I h1 h2 h3 _)
      · exact h2 _ _ _ this (Quiet.readExactLoop f _ _ I h1 h2 h3 _)
      · exact this

theorem readExact {n : Nat} : Quiet (R := R) (Wadec.readExact n) :=
  fun I h1 h2 h3 r => Quiet.readExactLoop _ _ _ I h1 h2 h3 r

theorem readToEndLoop : ∀ f acc, Quiet (R := R) (readToEndLoop f acc)
  | 0, _ => fuel
  | f + 1, acc => by
    intro I h1 h2 h3 r
    simp only [Wadec.readToEndLoop]
    have := h3 (Read.room r + 1) r (by omega)
    split <;> rename_i h <;> rw [h] at this
    · exact this
    · exact h2 _ _ _ this (Quiet.readToEndLoop f _ I h1 h2 h3 _)
    · exact h2 _ _ _ this (Quiet.readToEndLoop f _ I h1 h2 h3 _)
    · exact this

theorem readToEnd : Quiet (R := R) Wadec.readToEnd :=
  fun I h1 h2 h3 r => Quiet.readToEndLoop _ _ I h1 h2 h3 r

theorem readByte : Quiet (R := R) Wadec.readByte := by
  refine bind readExact fun v => ?_
  split
  · exact pure
  · exact panic

end Quiet

/-! ### Reservations against bytes -/

def Lg [Audit R] (c : Nat) (d : Dec R ε α) (c' : Nat) : Prop :=
  ∀ r res r', d r = (res, r') → ∃ new, Audit.log r' = Audit.log r ++ new ∧ (∀ n ∈ new, n < 2 ^ 32) ∧
    new.length + Audit.pot r' ≤ Audit.pot r + c ∧
    ∀ v, res = .ok v → new.length + Audit.pot r' + c' ≤ Audit.pot r + c

namespace Lg
variable [Audit R]

theorem _root_.Wadec.Quiet.lg {c : Nat} {d : Dec R ε α} (h : Quiet d) : Lg c d c := by
  intro r res r' hr
  have := h (fun r r' => Audit.log r' = Audit.log r ∧ Audit.pot r' ≤ Audit.pot r) (fun _ => by simp)
    (fun _ _ _ h1 h2 => ⟨h2.1.trans h1.1, Nat.le_trans h2.2 h1.2⟩)
    (fun n r _ => ⟨Audit.read_log n r, Audit.read_pot n r⟩) r
  rw [hr] at this
  simp only at this
  exact ⟨[], by simp [this.1], by simp, by simp; omega, fun _ _ => by simp; omega⟩

theorem weaken {c c' c1 c1' : Nat} {d : Dec R ε α} (h : Lg c d c') (h1 : c ≤ c1)
    (h2 : c1' + c ≤ c' + c1) : Lg c1 d c1' := by
  intro r res r' hr
  obtain ⟨new, h3, h4, h5, h6⟩ := h r res r' hr
  exact ⟨new, h3, h4, by omega, fun v hv => by have := h6 v hv; omega⟩

theorem bind {c c1 c2 : Nat} {d : Dec R ε α} {f : α → Dec R ε β} (hd : Lg c d c1)
    (hf : ∀ v, Lg c1 (f v) c2) : Lg c (d >>= f) c2 := by
  intro r res r' hr
  simp only [Bind.bind, Dec.bind] at hr
  cases hd' : d r with
  | mk res1 r1 =>
    rw [hd'] at hr
    obtain ⟨n1, h1, h2, h3, h4⟩ := hd r _ _ hd'
    cases res1 with
    | ok v =>
      obtain ⟨n2, g1, g2, g3, g4⟩ := hf v r1 _ _ hr
      have h4 := h4 v rfl
      refine ⟨n1 ++ n2, by rw [g1, h1, List.append_assoc], ?_, ?_, ?_⟩
      · intro n hn
        rcases List.mem_append.1 hn with hn | hn
        · exact h2 n hn
        · exact g2 n hn
      · simp; omega
      · intro v hv
        have := g4 v hv
        simp; omega
    | _ =>
      cases hr
      exact ⟨n1, h1, h2, h3, fun v hv => by cases hv⟩

theorem mapErr {c c' : Nat} {d : Dec R ε α} {f : ε → ε'} (hd : Lg c d c') : Lg c (d.mapErr f) c' := by
  intro r res r' hr
  simp only [Dec.mapErr] at hr
  cases hd' : d r with
  | mk res1 r1 =>
    rw [hd'] at hr
    obtain ⟨n1, h1, h2, h3, h4⟩ := hd r _ _ hd'
    cases res1 with
    | ok v => cases hr; exact ⟨n1, h1, h2, h3, fun _ _ => h4 v rfl⟩
    | _ => cases hr; exact ⟨n1, h1, h2, h3, fun v hv => by cases hv⟩

theorem ite {c c' : Nat} {p : Prop} [Decidable p] {a b : Dec R ε α} (ha : Lg c a c') (hb : Lg c b c') :
    Lg c (if p then a else b) c' := by
  split <;> assumption

theorem withChain {c : Nat} {b : UInt8} {d : Dec (Chain R) ε α} (hd : Lg c d c) :
    Lg (c + 1) (Dec.withChain b d) c := by
  intro r res r' hr
  simp only [Dec.withChain] at hr
  cases hd' : d ⟨[b], r⟩ with
  | mk res1 c1 =>
    rw [hd'] at hr
    cases hr
    obtain ⟨n, h1, h2, h3, h4⟩ := hd _ _ _ hd'
    simp only [Audit.log, Audit.pot, List.length_cons, List.length_nil] at h1 h3 h4
    simp only
    exact ⟨n, h1, h2, by omega, fun v hv => by have := h4 v hv; omega⟩

theorem withTake {c c' : Nat} {n : Nat} {d : Dec (Take R) ε α} (hd : Lg c d c') :
    Lg c (Dec.withTake n d) c' := by
  intro r res r' hr
  simp only [Dec.withTake] at hr
  cases hd' : d ⟨n, r⟩ with
  | mk res1 t1 =>
    rw [hd'] at hr
    obtain ⟨n, h1, h2, h3, h4⟩ := hd _ _ _ hd'
    cases res1 with
    | ok v => cases hr; exact ⟨n, h1, h2, h3, fun _ _ => h4 v rfl⟩
    | _ => cases hr; exact ⟨n, h1, h2, h3, fun v hv => by cases hv⟩

theorem reserve {c n : Nat} (hn : n < 2 ^ 32) : Lg (c + 1) (Dec.reserve n : Dec R ε Unit) c := by
  intro r res r' hr
  cases hr
  refine ⟨[n], Audit.reserve_log n r, by simpa using hn, ?_, ?_⟩
  · rw [Audit.reserve_pot]; simp; omega
  · intro v _
    rw [Audit.reserve_pot]; simp; omega

theorem readExactLoop {c : Nat} : ∀ f n acc, Lg (R := R) c (readExactLoop f n acc) (c + n)
  | 0, _, _ => by
    intro r res r' hr
    cases hr
    exact ⟨[], by simp, by simp, by simp, fun v hv => by cases hv⟩
  | f + 1, n, acc => by
    intro r res r' hr
    simp only [Wadec.readExactLoop] at hr
    split at hr
    · rename_i hn
      cases hr
      exact ⟨[], by simp, by simp, by simp, fun v _ => by simp [hn]⟩
    · have hl := Audit.read_log n r
      have hp := Audit.read_pot n r
      split at hr <;> rename_i h <;> rw [h] at hl hp
      · cases hr
        exact ⟨[], by simp [hl], by simp, by simp; simp at hp; omega, fun v hv => by cases hv⟩
      · have hk := Audit.read_ok _ _ _ _ h
        obtain ⟨new, h1, h2, h3, h4⟩ := Lg.readExactLoop (c := c) f _ _ _ _ _ hr
        simp only at hl hp
        refine ⟨new, by rw [h1, hl], h2, by omega, fun v hv => ?_⟩
        have := h4 v hv
        simp only [List.length_cons] at this hk
        omega
      · obtain ⟨new, h1, h2, h3, h4⟩ := Lg.readExactLoop (c := c) f _ _ _ _ _ hr
        simp only at hl hp
        refine ⟨new, by rw [h1, hl], h2, by omega, fun v hv => ?_⟩
        have := h4 v hv
        omega
      · cases hr
        exact ⟨[], by simp [hl], by simp, by simp; simp at hp; omega, fun v hv => by cases hv⟩

theorem readExact {c n : Nat} : Lg (R := R) c (Wadec.readExact n) (c + n) :=
  fun r _ _ hr => Lg.readExactLoop _ n [] r _ _ hr

theorem readByte {c : Nat} : Lg (R := R) c Wadec.readByte (c + 1) := by
  refine bind readExact fun v => ?_
  split
  · exact Quiet.pure.lg
  · exact Quiet.panic.lg

end Lg

end Wadec
