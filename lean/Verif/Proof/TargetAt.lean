import Verif.Proof.TargetModule
import Verif.Proof.Module

/-! A list or a byte vector that is too large for the target (C77). -/

namespace Wadec.Bounded

open LawfulRead Spec

variable {R : Type} {ε ε' α β σ : Type} {T : Target}

/-- With the bytes `bs` in front, `c` panics on the target. -/
def Bursts [LawfulRead R] (T : Target) (c : Dec R ε α) (bs : Bytes) : Prop :=
  ∀ r rest, avail r = bs ++ rest → (c r T).1 = .panic

namespace Bursts
variable [LawfulRead R]

theorem bind {c : Dec R ε α} {f : α → Dec R ε β} {bs : Bytes} (h : Bursts T c bs) : Bursts T (c >>= f) bs := by
  intro r rest ha
  have := h r rest ha
  show (Dec.bind c f r T).1 = _
  unfold Dec.bind
  generalize c r T = x at this ⊢
  obtain ⟨res, r'⟩ := x
  cases this
  rfl

theorem mapErr {c : Dec R ε α} {f : ε → ε'} {bs : Bytes} (h : Bursts T c bs) : Bursts T (c.mapErr f) bs := by
  intro r rest ha
  have := h r rest ha
  unfold Dec.mapErr
  generalize c r T = x at this ⊢
  obtain ⟨res, r'⟩ := x
  cases this
  rfl

theorem take {c : Dec (Take R) ε α} {n : Nat} {bs : Bytes} (h : Bursts T c bs) (hn : bs.length ≤ n) :
    Bursts T (Dec.withTake n c) bs := by
  intro r rest ha
  have := h ⟨n, r⟩ (rest.take (n - bs.length)) (by
    show (avail r).take n = _
    rw [ha, List.take_append, List.take_of_length_le hn])
  unfold Dec.withTake
  generalize c ⟨n, r⟩ T = x at this ⊢
  obtain ⟨res, r'⟩ := x
  cases this
  rfl

/-- the length, then the request -/
theorem announce {k : ElemKind} {mk : DecodeU32Error → ε} {f : UInt32 → Unit → Dec R ε α} {bs : Bytes} {n : UInt32} (hb : BU32 bs n)
    (hT : T.fits k n.toNat = false) :
    Bursts (R := R) T (decodeU32.mapErr mk >>= fun len => Dec.reserve k len.toNat >>= f len) bs := by
  intro r rest ha
  obtain ⟨r1, e1, _⟩ := decodeU32_runs (R := R) hb r rest ha
  simp only [Bind.bind, Dec.bind, Dec.mapErr, decodeU32, Dec.lift, e1, Dec.reserve, hT]
  rfl

theorem list [Element α] {f : Dec R ε α} {bs : Bytes} {n : UInt32} (hb : BU32 bs n)
    (hT : T.fits (Element.kind α) n.toNat = false) : Bursts (R := R) T (decodeList f) bs := bind (announce hb hT)

theorem byteVector {bs : Bytes} {n : UInt32} (hb : BU32 bs n) (hT : T.fits .byte n.toNat = false) :
    Bursts (R := R) T decodeByteVector bs := announce hb hT

end Bursts

variable [LawfulRead R]

/-- Any ledger does. -/
@[reducible] def someLedger (R : Type) [Read R] : Ledger R where
  seen _ _ := True
  read _ _ _ h := h
  keep _ _ _ h := h
  add _ _ _ := trivial
  unread _ _ _ h := h
  unkeep _ _ _ h := .inr h

/-- Reading the encoding of acceptable sections takes the loop from one state to another, or to a panic. -/
theorem loop_steps_on : ∀ (secs pre : List (UInt32 × Section)) (bs : Bytes), BSeq BSection bs secs →
    Acceptable ((pre ++ secs).map Prod.snd) → ∀ (n : Nat) (r : R) (rest : List UInt8), avail r = bs ++ rest →
    ∃ r', Adv bs r r' ∧ (sectionLoop (n + secs.length) (stateOf pre) r T = sectionLoop n (stateOf (pre ++ secs)) r' T ∨
      (sectionLoop (n + secs.length) (stateOf pre) r T).1 = .panic) := by
  intro secs
  induction secs with
  | nil =>
    intro pre bs h _ n r rest ha
    cases h
    exact ⟨r, adv_nil r, by simp⟩
  | cons s secs ih =>
    intro pre bs h hacc n r rest ha
    cases h with
    | @cons b bs _ _ h1 h2 =>
      cases h1 with
      | @mk b1 b2 size s hsz hlen hc =>
        have hacc1 : Acceptable (pre.map Prod.snd ++ [s]) := by
          apply Acceptable.prefix (b := secs.map Prod.snd)
          simpa using hacc
        obtain ⟨r1, a1, e1⟩ := header_cons (r := r) (b := sectionId s.kind)
          (rest := b1 ++ b2 ++ bs ++ rest) (by simp [ha])
        have av1 : avail r1 = b1 ++ (b2 ++ (bs ++ rest)) := by
          have := adv_avail a1
          rw [ha] at this
          simpa using this.symm
        obtain ⟨r2, e2, a2⟩ := headerRest_runs (R := R) (k := s.kind) hsz r1 _ av1
        have av2 : avail r2 = b2 ++ (bs ++ rest) := by
          have := adv_avail a2
          rw [av1] at this
          simpa using this.symm
        obtain ⟨r3, e3, a3⟩ := section_runs (R := R) hc hlen hacc1 r2 _ av2
        have av3 : avail r3 = bs ++ rest := by
          have := adv_avail a3
          rw [av2] at this
          simpa using this.symm
        obtain ⟨r4, a4, e4⟩ := ih (pre ++ [(size, s)]) bs h2 (by simpa using hacc) n r3 rest av3
        refine ⟨r4, ?_, ?_⟩
        · have := adv_trans a1 (adv_trans a2 (adv_trans a3 a4))
          simpa using this
        · letI := someLedger R
          have hs := (tied_section (R := R) ⟨s.kind, size⟩ (stateOf pre)).same r2 T
          rw [e3] at hs
          rw [List.length_cons, ← Nat.add_assoc, sectionLoop]
          simp only [Bind.bind, Dec.bind, Dec.mapErr, decodeSectionHeader, Dec.lift, e1, e2]
          generalize hx : decodeSection ⟨s.kind, size⟩ (stateOf pre) r2 T = x at hs ⊢
          rcases hs with ⟨rfl, _⟩ | ⟨hs, _⟩
          · simpa using e4
          · obtain ⟨res, r'⟩ := x
            cases hs
            exact .inr rfl

/-- After the preamble and acceptable sections, `decode_module` is about to read the next section header, or it panics. -/
theorem module_steps_on {secs : List (UInt32 × Section)} {bs rest : Bytes} (hb : BSeq BSection bs secs)
    (hacc : Acceptable (secs.map Prod.snd)) {r : R} (ha : avail r = preamble ++ (bs ++ rest)) :
    ∃ r' n, Adv (preamble ++ bs) r r' ∧ avail r' = rest ∧ rest.length < n ∧
      (decodeModule r T = (sectionLoop n (stateOf secs) >>= finalChecks) r' T ∨ (decodeModule r T).1 = .panic) := by
  obtain ⟨r1, e1, a1⟩ := preamble_runs (R := R) r _ ha
  have av1 : avail r1 = bs ++ rest := by
    have := adv_avail a1
    rw [ha] at this
    simpa using this.symm
  have hw := avail_le r
  have hs := seq_length hb
  rw [ha] at hw
  simp only [List.length_append] at hw
  obtain ⟨r2, a2, e2⟩ := loop_steps_on (T := T) secs [] bs hb (by simpa using hacc)
    (Read.weight r + 1 - secs.length) r1 rest av1
  refine ⟨r2, Read.weight r + 1 - secs.length, adv_trans a1 a2, ?_, by omega, ?_⟩
  · have := adv_avail a2
    rw [av1] at this
    simpa using this.symm
  · have h3 : Read.weight r + 1 - secs.length + secs.length = Read.weight r + 1 := by omega
    rw [h3, stateOf_nil, List.nil_append] at e2
    simp only [decodeModule, Bind.bind, Dec.bind, Dec.mapErr, parsePreamble, Dec.lift, e1]
    rcases e2 with e2 | e2
    · exact .inl (by rw [e2])
    · right
      generalize sectionLoop _ _ r1 T = x at e2 ⊢
      obtain ⟨res, r'⟩ := x
      cases e2
      rfl

/-- If the next section panics, so does the module. -/
theorem section_on {secs : List Section} {k : SectionKind} {size : UInt32} {bs rest : Bytes} {r : R}
    (hat : AtSection (avail r) secs k size (bs ++ rest))
    (hs : ∀ pre : List (UInt32 × Section), pre.map Prod.snd = secs → Bursts (R := R) T (decodeSection ⟨k, size⟩ (stateOf pre)) bs) :
    (decodeModule r T).1 = .panic := by
  generalize ha : avail r = inp at hat
  cases hat with
  | @mk b0 b1 _ secs _ _ h0 hacc h1 =>
    obtain ⟨r1, k1, a1, av1, hk1, e1⟩ := module_steps_on (T := T) h0 hacc ha
    rcases e1 with e1 | e1
    · obtain ⟨r2, a2, e2⟩ := header_cons (r := r1) av1
      have av2 : avail r2 = b1 ++ (bs ++ rest) := by
        have := adv_avail a2
        rw [av1] at this
        simpa using this.symm
      obtain ⟨r3, e3, a3⟩ := headerRest_runs (R := R) (k := k) h1 r2 _ av2
      have av3 : avail r3 = bs ++ rest := by
        have := adv_avail a3
        rw [av2] at this
        simpa using this.symm
      match k1, hk1 with
      | k1 + 1, _ =>
        have h4 := hs _ rfl r3 rest av3
        rw [e1, sectionLoop]
        simp only [Bind.bind, Dec.bind, Dec.mapErr, decodeSectionHeader, Dec.lift, e2, e3]
        generalize decodeSection ⟨k, size⟩ (stateOf secs) r3 T = x at h4 ⊢
        obtain ⟨res, r'⟩ := x
        cases h4
        rfl
    · exact e1

end Wadec.Bounded
