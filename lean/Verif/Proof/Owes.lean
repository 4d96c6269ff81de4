import Verif.Proof.LogAll

/-! C44: how much is reserved, against what is read.

`Owes k c d c'`: starting with credit `c`, the elements for which `d` reserves room are at most as many as the bytes it
reads, plus `c`, plus the room of `k` reservations; if it succeeds, the latter are not needed and `c'` is left over. -/

namespace Wadec

variable {R ε ε' α β σ : Type} [Read R] [Audit R]

def Owes (k c : Nat) (d : Dec R ε α) (c' : Nat) : Prop :=
  ∀ r res r', d r = (res, r') → ∃ new, Audit.log r' = Audit.log r ++ new ∧
    new.sum + Audit.pot r' ≤ Audit.pot r + c + k * (2 ^ 32 - 1) ∧
    ∀ v, res = .ok v → new.sum + Audit.pot r' + c' ≤ Audit.pot r + c

theorem Quiet.owes {k c : Nat} {d : Dec R ε α} (h : Quiet d) : Owes k c d c := by
  intro r res r' hr
  have := h (fun r r' => Audit.log r' = Audit.log r ∧ Audit.pot r' ≤ Audit.pot r) (fun _ => by simp)
    (fun _ _ _ h1 h2 => ⟨h2.1.trans h1.1, Nat.le_trans h2.2 h1.2⟩)
    (fun n r _ => ⟨Audit.read_log n r, Audit.read_pot n r⟩) r
  rw [hr] at this
  simp only at this
  exact ⟨[], by simp [this.1], by simp; omega, fun _ _ => by simp; omega⟩

namespace Owes

theorem weaken {k k1 c c' c1 c1' : Nat} {d : Dec R ε α} (h : Owes k c d c') (hk : k ≤ k1) (h1 : c ≤ c1)
    (h2 : c1' + c ≤ c' + c1) : Owes k1 c1 d c1' := by
  intro r res r' hr
  obtain ⟨new, h3, h4, h5⟩ := h r res r' hr
  have : k * (2 ^ 32 - 1) ≤ k1 * (2 ^ 32 - 1) := Nat.mul_le_mul_right _ hk
  exact ⟨new, h3, by omega, fun v hv => by have := h5 v hv; omega⟩

/-- Whatever fails outright. -/
theorem fail {k c c' : Nat} {d : Dec R ε α} (hq : Quiet d) (hn : ∀ r v r', d r ≠ (.ok v, r')) : Owes k c d c' := by
  intro r res r' hr
  obtain ⟨new, h1, h2, _⟩ := hq.owes (k := k) (c := c) r res r' hr
  exact ⟨new, h1, h2, fun v hv => absurd (hv ▸ hr) (hn r v r')⟩

theorem err {k c c' : Nat} {e : ε} : Owes (R := R) (α := α) k c (Dec.err e) c' :=
  fail Quiet.err fun _ _ _ h => by cases h
theorem panic {k c c' : Nat} : Owes (R := R) (ε := ε) (α := α) k c Dec.panic c' :=
  fail Quiet.panic fun _ _ _ h => by cases h
theorem fuel {k c c' : Nat} : Owes (R := R) (ε := ε) (α := α) k c Dec.outOfFuel c' :=
  fail Quiet.fuel fun _ _ _ h => by cases h

theorem bind {k c c1 c2 : Nat} {d : Dec R ε α} {f : α → Dec R ε β} (hd : Owes k c d c1)
    (hf : ∀ v, Owes k c1 (f v) c2) : Owes k c (d >>= f) c2 := by
  intro r res r' hr
  simp only [Bind.bind, Dec.bind] at hr
  cases hd' : d r with
  | mk res1 r1 =>
    rw [hd'] at hr
    obtain ⟨n1, h1, h3, h4⟩ := hd r _ _ hd'
    cases res1 with
    | ok v =>
      obtain ⟨n2, g1, g3, g4⟩ := hf v r1 _ _ hr
      have h4 := h4 v rfl
      refine ⟨n1 ++ n2, by rw [g1, h1, List.append_assoc], ?_, ?_⟩
      · rw [List.sum_append]; omega
      · intro v hv
        have := g4 v hv
        rw [List.sum_append]; omega
    | _ =>
      cases hr
      exact ⟨n1, h1, h3, fun v hv => by cases hv⟩

theorem mapErr {k c c' : Nat} {d : Dec R ε α} {f : ε → ε'} (hd : Owes k c d c') : Owes k c (d.mapErr f) c' := by
  intro r res r' hr
  simp only [Dec.mapErr] at hr
  cases hd' : d r with
  | mk res1 r1 =>
    rw [hd'] at hr
    obtain ⟨n1, h1, h3, h4⟩ := hd r _ _ hd'
    cases res1 with
    | ok v => cases hr; exact ⟨n1, h1, h3, fun _ _ => h4 v rfl⟩
    | _ => cases hr; exact ⟨n1, h1, h3, fun v hv => by cases hv⟩

theorem ite {k c c' : Nat} {p : Prop} [Decidable p] {a b : Dec R ε α} (ha : Owes k c a c') (hb : Owes k c b c') :
    Owes k c (if p then a else b) c' := by
  split <;> assumption

theorem withChain {k c c' : Nat} {b : UInt8} {d : Dec (Chain R) ε α} (hd : Owes k c d c') :
    Owes k (c + 1) (Dec.withChain b d) c' := by
  intro r res r' hr
  simp only [Dec.withChain] at hr
  cases hd' : d ⟨[b], r⟩ with
  | mk res1 c1 =>
    rw [hd'] at hr
    cases hr
    obtain ⟨n, h1, h3, h4⟩ := hd _ _ _ hd'
    simp only [Audit.log, Audit.pot, List.length_cons, List.length_nil] at h1 h3 h4
    simp only
    exact ⟨n, h1, by omega, fun v hv => by have := h4 v hv; omega⟩

theorem withTake {k c c' : Nat} {n : Nat} {d : Dec (Take R) ε α} (hd : Owes k c d c') :
    Owes k c (Dec.withTake n d) c' := by
  intro r res r' hr
  simp only [Dec.withTake] at hr
  cases hd' : d ⟨n, r⟩ with
  | mk res1 t1 =>
    rw [hd'] at hr
    obtain ⟨n, h1, h3, h4⟩ := hd _ _ _ hd'
    cases res1 with
    | ok v => cases hr; exact ⟨n, h1, h3, fun _ _ => h4 v rfl⟩
    | _ => cases hr; exact ⟨n, h1, h3, fun v hv => by cases hv⟩

theorem of_lg_quiet {k c c' : Nat} {d : Dec R ε α} (hq : Quiet d) (h : Lg c d c') : Owes k c d c' := by
  intro r res r' hr
  obtain ⟨new, h1, _, h3, h4⟩ := h r res r' hr
  have := hq (fun r r' => Audit.log r' = Audit.log r) (fun _ => rfl) (fun _ _ _ h1 h2 => h2.trans h1)
    (fun n r _ => Audit.read_log n r) r
  rw [hr] at this
  simp only at this
  have hn : new = [] := by
    have h5 := h1.symm.trans this
    simpa using h5
  subst hn
  exact ⟨[], h1, by simp at h3 ⊢; omega, fun v hv => by have := h4 v hv; simpa using this⟩

theorem readExact {k c n : Nat} : Owes (R := R) k c (Wadec.readExact n) (c + n) := of_lg_quiet Quiet.readExact Lg.readExact
theorem readByte {k c : Nat} : Owes (R := R) k c Wadec.readByte (c + 1) := of_lg_quiet Quiet.readByte Lg.readByte
theorem u32 {k c : Nat} : Owes (R := R) k c decodeU32 (c + 1) := of_lg_quiet u32_q u32_lg

/-- Read a byte, then go on with one more credit than before. -/
theorem byte {k c c' : Nat} {f : IoError → ε} {g : UInt8 → Dec R ε α} (h : ∀ b, Owes k (c + 1) (g b) c') :
    Owes k c (Dec.mapErr f (Wadec.readByte : Dec R IoError UInt8) >>= g) c' :=
  bind (mapErr readByte) h

/-- What reserves nothing, behind something that took a byte. -/
theorem quiet {k c c' : Nat} {d : Dec R ε α} (h : Quiet d) (hc : c' ≤ c := by omega) : Owes k c d c' :=
  h.owes.weaken (Nat.le_refl _) (Nat.le_refl _) (by omega)

theorem then_quiet {k c c' : Nat} {d : Dec R ε α} {f : α → Dec R ε β} (hd : Owes k c d c') (hf : ∀ v, Quiet (f v)) :
    Owes k c (d >>= f) c' := bind hd fun v => (hf v).owes

theorem pure {k c : Nat} {v : α} : Owes (R := R) (ε := ε) k c (Pure.pure v) c := Quiet.pure.owes

/-! ### Lists -/

theorem byteVec {k : Nat} : Owes (R := R) (k + 1) 0 decodeByteVector 1 := by
  refine bind (mapErr (u32 (k := k + 1) (c := 0))) fun n => ?_
  intro r res r' hr
  simp only [Bind.bind, Dec.bind, Dec.reserve] at hr
  obtain ⟨new, h1, h2, h3⟩ := (mapErr (f := DecodeByteVectorError.ReadElements)
    (readExact (R := R) (k := k) (c := 0) (n := n.toNat))) _ _ _ hr
  rw [Audit.reserve_log, Audit.reserve_pot] at *
  have hn := n.toNat_lt
  refine ⟨n.toNat :: new, by rw [h1, List.append_assoc]; rfl, ?_, ?_⟩
  · simp only [List.sum_cons]; omega
  · intro v hv
    have := h3 v hv
    simp only [List.sum_cons]; omega

theorem listLoop {k : Nat} {f : σ → Dec R ε (α × σ)} (hf : ∀ st, Owes k 0 (f st) 1) :
    ∀ n i st items, Owes k 0 (decodeListLoop f n i st items) n
  | 0, _, _, _ => Quiet.pure.owes
  | n + 1, i, st, items => by
    refine bind (mapErr (hf st)) fun ⟨_, _⟩ => ?_
    exact (listLoop hf n _ _ _).weaken (Nat.le_refl _) (by omega) (by omega)

theorem listS {k : Nat} {f : σ → Dec R ε (α × σ)} {st : σ} (hf : ∀ st, Owes k 0 (f st) 1) :
    Owes (k + 1) 0 (decodeListS f st) 1 := by
  refine bind (mapErr (u32 (k := k + 1) (c := 0))) fun n => ?_
  intro r res r' hr
  simp only [Bind.bind, Dec.bind, Dec.reserve] at hr
  obtain ⟨new, h1, h2, h3⟩ := listLoop hf n.toNat 0 st [] _ _ _ hr
  rw [Audit.reserve_log, Audit.reserve_pot] at *
  have hn := n.toNat_lt
  refine ⟨n.toNat :: new, by rw [h1, List.append_assoc]; rfl, ?_, ?_⟩
  · simp only [List.sum_cons]; omega
  · intro v hv
    have := h3 v hv
    simp only [List.sum_cons]; omega

theorem list {k : Nat} {f : Dec R ε α} (hf : Owes k 0 f 1) : Owes (k + 1) 0 (decodeList f) 1 :=
  bind (listS fun _ => bind hf fun _ => pure) fun ⟨_, _⟩ => pure

/-- Indices take a byte. -/
theorem idx {k : Nat} {f : DecodeU32Error → ε} {g : UInt32 → α} :
    Owes (R := R) k 0 (Dec.mapErr f decodeU32 >>= fun n => Pure.pure (g n)) 1 := bind (mapErr u32) fun _ => pure

end Owes

end Wadec
