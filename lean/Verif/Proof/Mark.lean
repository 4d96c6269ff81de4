import Verif.Proof.ModuleErr
import Verif.Spec.MarkOf
import Verif.Props.Unambiguous

/-! C41: the calculus of justified complaints. -/

namespace Wadec

open Wadec.Spec LawfulRead MarkOf

variable {R ε ε' α β : Type}

/-- The complaint `m` is justified by bytes among `acc` (bytes read before) and what was read from
`r`; if `m` is exact these are the last bytes read. -/
def Located [LawfulRead R] (acc : Bytes) (m : Mark) (r r' : R) : Prop :=
  ∃ pre enc, m.Justified enc ∧ enc ≠ [] ∧
    (m.exact → ∃ cons, Adv cons r r' ∧ acc ++ cons = pre ++ enc) ∧
    ∃ rest, acc ++ avail r = pre ++ enc ++ rest

def Blame [LawfulRead R] [MarkOf ε] (acc : Bytes) (d : Dec R ε α) : Prop :=
  ∀ r e r' m, d r = (.err e, r') → mark e = some m → Located acc m r r'

/-- `d` accounts for what it consumes, and its complaints are justified. -/
def Bl [LawfulRead R] [MarkOf ε] (acc : Bytes) (d : Dec R ε α) : Prop :=
  Sound d (fun _ _ => True) ∧ Blame acc d

section rules
variable [LawfulRead R] [MarkOf ε] [MarkOf ε'] {acc : Bytes}

theorem Located.weaken {m : Mark} {r r' : R} (h : Located acc m r r') (x : Bytes) :
    Located (x ++ acc) m r r' := by
  obtain ⟨pre, enc, h1, h2, h3, rest, h4⟩ := h
  refine ⟨x ++ pre, enc, h1, h2, fun he => ?_, rest, by rw [List.append_assoc, h4]; simp⟩
  obtain ⟨cons, h5, h6⟩ := h3 he
  exact ⟨cons, h5, by rw [List.append_assoc, h6]; simp⟩

theorem Blame.none {d : Dec R ε α} (h : ∀ e : ε, mark e = none) : Blame acc d := by
  intro r e r' m _ hm
  rw [h] at hm
  cases hm

theorem Bl.weaken {d : Dec R ε α} (h : Bl acc d) (x : Bytes) : Bl (x ++ acc) d :=
  ⟨h.1, fun r e r' m he hm => (h.2 r e r' m he hm).weaken x⟩

theorem Bl.any {d : Dec R ε α} (h : Bl [] d) : Bl acc d := by
  have := h.weaken acc
  rwa [List.append_nil] at this

theorem Bl.ofSound {T : Bytes → α → Prop} {d : Dec R ε α} (h : Sound d T)
    (hn : ∀ e : ε, mark e = none) : Bl acc d :=
  ⟨h.mono fun _ _ _ => trivial, Blame.none hn⟩

theorem Bl.pure {v : α} : Bl acc (Pure.pure v : Dec R ε α) :=
  ⟨Sound.pure trivial, fun _ _ _ _ h _ => by cases h⟩

theorem Bl.panic : Bl acc (Dec.panic : Dec R ε α) :=
  ⟨Sound.panic, fun _ _ _ _ h _ => by cases h⟩

theorem Bl.outOfFuel : Bl acc (Dec.outOfFuel : Dec R ε α) :=
  ⟨Sound.outOfFuel, fun _ _ _ _ h _ => by cases h⟩

theorem Bl.reserve {n : Nat} : Bl acc (Dec.reserve n : Dec R ε Unit) :=
  ⟨Sound.reserve.mono fun _ _ _ => trivial, fun _ _ _ _ h _ => by cases h⟩

theorem Bl.err {e : ε}
    (h : ∀ m, mark e = some m → ∃ pre enc, acc = pre ++ enc ∧ enc ≠ [] ∧ m.Justified enc) :
    Bl acc (Dec.err e : Dec R ε α) := by
  refine ⟨Sound.err, ?_⟩
  intro r e' r' m he hm
  cases he
  obtain ⟨pre, enc, h1, h2, h3⟩ := h m hm
  exact ⟨pre, enc, h3, h2, fun _ => ⟨[], adv_nil r, by simpa using h1⟩, avail r, by rw [h1]⟩

theorem Bl.errNone {e : ε} (h : mark e = none) : Bl acc (Dec.err e : Dec R ε α) :=
  Bl.err fun m hm => by rw [h] at hm; cases hm

/-- Sequencing, when the complaints of the continuation may concern what `d` has read. -/
theorem Bl.bindT {d : Dec R ε α} {f : α → Dec R ε β} {T : Bytes → α → Prop} (hs : Sound d T)
    (hd : Bl acc d) (hf : ∀ v bs, T bs v → Bl (acc ++ bs) (f v)) : Bl acc (d >>= f) := by
  refine ⟨Sound.bind hs fun v bs hv => (hf v bs hv).1, ?_⟩
  intro r e r' m he hm
  simp only [Bind.bind, Dec.bind] at he
  rcases hdr : d r with ⟨res, r1⟩
  rw [hdr] at he
  cases res with
  | ok v =>
    obtain ⟨bs, h1, h2⟩ := hs _ _ _ hdr
    obtain ⟨pre, enc, h3, h4, h5, rest, h6⟩ := (hf v bs h2).2 r1 e r' m he hm
    refine ⟨pre, enc, h3, h4, fun hx => ?_, rest, ?_⟩
    · obtain ⟨cons, h7, h8⟩ := h5 hx
      exact ⟨bs ++ cons, adv_trans h1 h7, by rw [← h8]; simp⟩
    · rw [← h6, adv_avail h1]; simp
  | err e1 =>
    cases he
    exact hd.2 _ _ _ m hdr hm
  | panic => cases he
  | fuel => cases he

theorem Bl.bind {d : Dec R ε α} {f : α → Dec R ε β} (hd : Bl [] d) (hf : ∀ v, Bl [] (f v)) :
    Bl acc (d >>= f) :=
  Bl.bindT hd.1 hd.any fun v _ _ => (hf v).any

theorem Bl.mapErr {d : Dec R ε α} {f : ε → ε'} (hd : Bl acc d)
    (hf : ∀ e m, mark (f e) = some m → mark e = some m) : Bl acc (d.mapErr f) := by
  refine ⟨Sound.mapErr hd.1, ?_⟩
  intro r e r' m he hm
  simp only [Dec.mapErr] at he
  rcases hdr : d r with ⟨res, r1⟩
  rw [hdr] at he
  cases res with
  | err e1 =>
    cases he
    exact hd.2 _ _ _ m hdr (hf _ _ hm)
  | ok v => cases he
  | panic => cases he
  | fuel => cases he

/-- Wrapping an error whose complaint is about a wider sort than the one it wraps. -/
theorem Bl.mapErrF {d : Dec R ε α} {f : ε → ε'} (hd : Bl acc d)
    (hf : ∀ r e r' m', d r = (.err e, r') → mark (f e) = some m' → ∃ m, mark e = some m ∧
      (m' = m ∨ (∀ enc, m.Justified enc → m'.Justified enc) ∧ (m'.exact → m.exact))) :
    Bl acc (d.mapErr f) := by
  refine ⟨Sound.mapErr hd.1, ?_⟩
  intro r e r' m he hm
  simp only [Dec.mapErr] at he
  rcases hdr : d r with ⟨res, r1⟩
  rw [hdr] at he
  cases res with
  | err e1 =>
    cases he
    obtain ⟨m1, h1, h2⟩ := hf _ _ _ _ hdr hm
    have h3 := hd.2 _ _ _ m1 hdr h1
    rcases h2 with rfl | ⟨h2, h4⟩
    · exact h3
    · obtain ⟨pre, enc, h5, h6, h7, h8⟩ := h3
      exact ⟨pre, enc, h2 _ h5, h6, fun h => h7 (h4 h), h8⟩
  | ok v => cases he
  | panic => cases he
  | fuel => cases he

theorem Bl.ite {c : Prop} [Decidable c] {a b : Dec R ε α} (h1 : c → Bl acc a) (h2 : ¬c → Bl acc b) :
    Bl acc (if c then a else b) := by
  split <;> simp_all

theorem Bl.withTake {n : Nat} {d : Dec (Take R) ε α} (hd : Bl acc d) : Bl acc (Dec.withTake n d) := by
  refine ⟨(Sound.withTake hd.1).mono fun _ _ _ => trivial, ?_⟩
  intro r e r' m he hm
  simp only [Dec.withTake] at he
  rcases hdr : d { limit := n, inner := r } with ⟨res, t⟩
  rw [hdr] at he
  cases res with
  | err e1 =>
    cases he
    obtain ⟨pre, enc, h3, h4, h5, rest, h6⟩ := hd.2 _ _ _ m hdr hm
    refine ⟨pre, enc, h3, h4, fun hx => ?_, rest ++ (avail r).drop n, ?_⟩
    · obtain ⟨cons, ⟨_, h7⟩, h8⟩ := h5 hx
      exact ⟨cons, h7, h8⟩
    · rw [← List.append_assoc, ← h6]
      simp [avail]
  | ok v => cases he
  | panic => cases he
  | fuel => cases he

theorem chain_adv {b : UInt8} {r : R} {c : Chain R} {bs : Bytes} (hne : bs ≠ [])
    (h : Adv bs ({ first := [b], inner := r } : Chain R) c) : ∃ b2, bs = b :: b2 ∧ Adv b2 r c.inner := by
  obtain ⟨b1, b2, h1, h2, h3, h4⟩ := h
  simp only at h2 h3
  match b1, h2 with
  | [], h2 =>
    have hb2 : b2 ≠ [] := by rintro rfl; exact hne (by simpa using h1)
    rw [h4 hb2] at h2
    cases h2
  | [x], h2 =>
    simp only [List.cons_append, List.nil_append, List.cons.injEq] at h2
    exact ⟨b2, by rw [h1, h2.1]; rfl, h3⟩
  | _ :: _ :: _, h2 => simp at h2

theorem Bl.withChain {b : UInt8} {d : Dec (Chain R) ε α} {T : Bytes → α → Prop} (hs : Sound d T)
    (hne : ∀ v, ¬ T [] v) (hd : Blame [] d) : Bl [b] (Dec.withChain b d) := by
  refine ⟨(Sound.withChain hs hne).mono fun _ _ _ => trivial, ?_⟩
  intro r e r' m he hm
  simp only [Dec.withChain] at he
  rcases hdr : d { first := [b], inner := r } with ⟨res, c⟩
  rw [hdr] at he
  cases he
  obtain ⟨pre, enc, h3, h4, h5, rest, h6⟩ := hd _ _ _ m hdr hm
  refine ⟨pre, enc, h3, h4, fun hx => ?_, rest, by rw [← h6]; simp [avail]⟩
  obtain ⟨cons, h7, h8⟩ := h5 hx
  have hc : cons ≠ [] := by
    rintro rfl
    simp only [List.nil_append] at h8
    exact h4 (List.append_eq_nil_iff.mp h8.symm).2
  obtain ⟨b2, h9, h10⟩ := chain_adv hc h7
  exact ⟨b2, h10, by rw [← h8, h9]; rfl⟩

/-- Reading a byte first. -/
theorem Bl.byteT {g : IoError → ε} {f : UInt8 → Dec R ε β} (hg : ∀ e, mark (g e) = none)
    (hf : ∀ b, Bl (acc ++ [b]) (f b)) : Bl acc (readByte.mapErr g >>= f) := by
  refine Bl.bindT (Sound.mapErr Sound.readByte) ⟨(Sound.mapErr Sound.readByte).mono fun _ _ _ => trivial, ?_⟩ ?_
  · intro r e r' m he hm
    simp only [Dec.mapErr] at he
    split at he <;> cases he
    rw [hg] at hm
    cases hm
  · rintro b _ rfl
    exact hf b

end rules

end Wadec
