import Verif.Proof.StdReaders
import Verif.Proof.AnyReaderAll

/-! What every `read` of a reader keeps, `decode_module` keeps (C82). -/

namespace Wadec

variable {R ε ε' α β : Type} [Read R] {Inv : R → Prop}

/-- `d` keeps `Inv`. -/
def Upkeep (Inv : R → Prop) (d : Dec R ε α) : Prop := ∀ r res r', d r = (res, r') → res ≠ .fuel → Inv r → Inv r'

/-- From simulations: a reader that mirrors itself where `Inv` fails. -/
theorem Upkeep.of_sims {d : Dec R ε α} (h : Sims (fun r s => r = s ∧ ¬ Inv r) d d) : Upkeep Inv d := by
  intro r res r' hd hf hi
  refine Classical.byContradiction fun hn => ?_
  obtain ⟨s, ⟨_, h1⟩, _⟩ := h r res r' r' hd hf ⟨rfl, hn⟩
  exact h1 hi

theorem Sim.of_inv (hr : ∀ n r, Inv r → Inv (Read.read n r).2) (hs : ∀ n r, Inv r → Inv (Read.reserve n r)) :
    Sim (fun r s : R => r = s ∧ ¬ Inv r) where
  read := by
    rintro n r res r' s' h ⟨rfl, hn⟩
    exact ⟨r, ⟨rfl, fun hi => hn (by have := hr n r hi; rwa [h] at this)⟩, h⟩
  weight := by
    rintro r s ⟨rfl, _⟩
    exact Nat.le_refl _
  reserve := by
    rintro n r s' ⟨rfl, hn⟩
    exact ⟨r, ⟨rfl, fun hi => hn (hs n r hi)⟩, rfl⟩
  room := by
    rintro r s ⟨rfl, _⟩
    rfl

theorem Upkeep.bind {d : Dec R ε α} {f : α → Dec R ε β} (h : Upkeep Inv d) (hf : ∀ a, Upkeep Inv (f a)) :
    Upkeep Inv (d.bind f) := by
  intro r res r' hd hn hi
  simp only [Dec.bind] at hd
  generalize ho : d r = o at hd
  obtain ⟨o, r1⟩ := o
  cases o with
  | ok a => exact hf a r1 res r' hd hn (h r _ r1 ho (by simp) hi)
  | err e => cases hd; exact h r _ _ ho (by simp) hi
  | panic => cases hd; exact h r _ _ ho (by simp) hi
  | fuel => cases hd; exact absurd rfl hn

theorem Upkeep.mapErr {d : Dec R ε α} {f : ε → ε'} (h : Upkeep Inv d) : Upkeep Inv (d.mapErr f) := by
  intro r res r' hd hn hi
  simp only [Dec.mapErr] at hd
  generalize ho : d r = o at hd
  obtain ⟨o, r1⟩ := o
  cases o with
  | ok a => cases hd; exact h r _ _ ho (by simp) hi
  | err e => cases hd; exact h r _ _ ho (by simp) hi
  | panic => cases hd; exact h r _ _ ho (by simp) hi
  | fuel => cases hd; exact absurd rfl hn

theorem Upkeep.const {res : Res ε α} : Upkeep Inv (fun r : R => (res, r)) := by
  intro r res r' hd _ hi
  cases hd
  exact hi

theorem Upkeep.ite {c : Prop} [Decidable c] {d e : Dec R ε α} (h1 : Upkeep Inv d) (h2 : Upkeep Inv e) :
    Upkeep Inv (if c then d else e) := by
  split
  · exact h1
  · exact h2

section
variable {exact : Nat → Dec R IoError (List UInt8)} (hx : ∀ n, Upkeep Inv (exact n))
include hx

theorem byteBy_upkeep : Upkeep Inv (readByteBy exact) :=
  Upkeep.bind (hx 1) fun _ => by split <;> exact Upkeep.const

theorem u32LoopBy_upkeep : ∀ rem i res sh, Upkeep Inv (decodeU32LoopBy exact rem i res sh)
  | 0, _, _, _ => Upkeep.const
  | rem + 1, i, res, sh =>
    Upkeep.bind (Upkeep.mapErr (byteBy_upkeep hx)) fun _ => Upkeep.ite Upkeep.const (Upkeep.ite
      (Upkeep.ite Upkeep.const Upkeep.const) (Upkeep.ite Upkeep.const (u32LoopBy_upkeep rem _ _ _)))

theorem headerBy_upkeep : Upkeep Inv (decodeSectionHeaderBy exact) := by
  have hrest : ∀ id, Upkeep Inv (sectionHeaderRestBy exact id) := by
    intro id
    unfold sectionHeaderRestBy
    split
    · exact Upkeep.const
    · exact Upkeep.bind (Upkeep.mapErr (u32LoopBy_upkeep hx _ _ _ _)) fun _ => Upkeep.const
  intro r res r' hd hn hi
  simp only [decodeSectionHeaderBy] at hd
  generalize ho : readByteBy exact r = o at hd
  obtain ⟨o, r1⟩ := o
  cases o with
  | ok a => exact hrest a r1 res r' hd hn (byteBy_upkeep hx r _ r1 ho (by simp) hi)
  | err e =>
    have := byteBy_upkeep hx r _ r1 ho (by simp) hi
    simp only at hd
    split at hd <;> (cases hd; exact this)
  | panic => cases hd; exact byteBy_upkeep hx r _ _ ho (by simp) hi
  | fuel => cases hd; exact absurd rfl hn

theorem loopBy_upkeep (hs : ∀ h st, Upkeep Inv (decodeSection (R := R) h st)) :
    ∀ n st, Upkeep Inv (sectionLoopBy exact n st)
  | 0, _ => Upkeep.const
  | n + 1, st => Upkeep.bind (Upkeep.mapErr (headerBy_upkeep hx)) fun h => by
      split
      · exact Upkeep.const
      · exact Upkeep.bind (hs _ _) fun _ => loopBy_upkeep hs n _

end

/-- What `read`, reservations and the reader's `read_exact` keep, `decode_module` keeps. -/
theorem module_upkeep (hr : ∀ n r, Inv r → Inv (Read.read n r).2) (hs : ∀ n r, Inv r → Inv (Read.reserve n r))
    {exact : Nat → Dec R IoError (List UInt8)} (hx : ∀ n, Upkeep Inv (exact n)) : Upkeep Inv (decodeModuleBy exact) := by
  intro r
  refine Upkeep.bind (Inv := Inv) (Upkeep.mapErr (Upkeep.bind (Upkeep.mapErr (hx 8)) fun _ => Upkeep.ite Upkeep.const Upkeep.const))
    (fun _ => Upkeep.bind (loopBy_upkeep hx (fun h st => Upkeep.of_sims (section_sims (Sim.of_inv hr hs))) _ _) fun st => ?_) r
  exact Upkeep.of_sims finalChecks_sims

/-- The default `read_exact` keeps what `read` keeps. -/
theorem readExact_upkeep (hr : ∀ n r, Inv r → Inv (Read.read n r).2) (hs : ∀ n r, Inv r → Inv (Read.reserve n r)) (n : Nat) :
    Upkeep Inv (readExact (R := R) n) :=
  Upkeep.of_sims (Sims.readExact (Sim.of_inv hr hs))

/-- `BufReader` never holds more than its capacity. -/
def BufReader.Holds {S : Type} (cap : Nat) (s : BufReader S) : Prop := s.cap = cap ∧ s.buf.length ≤ cap

theorem BufReader.module_holds {S : Type} [LawfulRead S] (cap : Nat) :
    Upkeep (BufReader.Holds cap) (decodeModuleBy (R := BufReader S) BufReader.exact) := by
  have hr : ∀ n (r : BufReader S), r.Holds cap → BufReader.Holds cap (Read.read n r).2 := by
    rintro n ⟨c, buf, inner⟩ ⟨h1, h2⟩
    simp only at h1 h2
    subst h1
    simp only [Read.read, BufReader.read]
    cases buf with
    | nil =>
      simp only
      split
      · exact ⟨rfl, h2⟩
      · generalize ho : Read.read c inner = o
        obtain ⟨res, r'⟩ := o
        cases res with
        | error e => exact ⟨rfl, h2⟩
        | ok l =>
          refine ⟨rfl, ?_⟩
          cases l with
          | nil => simp
          | cons b l =>
            have := (LawfulRead.read_data (by omega) ho).1
            simp only [List.length_drop]
            omega
    | cons b l =>
      refine ⟨rfl, ?_⟩
      simp only [List.length_drop]
      omega
  refine module_upkeep hr (fun _ _ h => h) fun n => ?_
  rintro ⟨c, buf, inner⟩ res r' hd hn ⟨h1, h2⟩
  simp only [BufReader.exact] at hd
  split at hd
  · cases hd
    refine ⟨h1, ?_⟩
    simp only [List.length_drop] at h2 ⊢
    omega
  · exact readExact_upkeep hr (fun _ _ h => h) n _ _ _ hd hn ⟨h1, h2⟩

/-- All that the script `all` can deliver has been handed out (`used`), is in the buffer or still to come. -/
def BufReader.Kept (all : List UInt8) (s : BufReader Src) : Prop :=
  ∃ used, all = used ++ (s.buf ++ Src.stream s.inner.evs)

theorem Src.read_stream (n : Nat) (r : Src) :
    Src.stream r.evs = (match (Src.read n r).1 with | .ok bs => bs | .error _ => []) ++ Src.stream (Src.read n r).2.evs := by
  obtain ⟨evs, log⟩ := r
  cases evs with
  | nil => rfl
  | cons e t =>
    cases e with
    | fail e => rfl
    | data bs =>
      simp only [Src.read]
      by_cases h : bs.length ≤ n
      · simp only [if_pos h]; rfl
      · simp only [if_neg h, Src.stream]
        rw [← List.append_assoc, List.take_append_drop]

theorem BufReader.module_kept (all : List UInt8) :
    Upkeep (BufReader.Kept all) (decodeModuleBy (R := BufReader Src) BufReader.exact) := by
  have hr : ∀ n (r : BufReader Src), r.Kept all → BufReader.Kept all (Read.read n r).2 := by
    rintro n ⟨c, buf, inner⟩ ⟨used, h⟩
    simp only [Read.read, BufReader.read] at h ⊢
    cases buf with
    | nil =>
      simp only [List.nil_append] at h ⊢
      split
      · have h1 := Src.read_stream n inner
        generalize Src.read n inner = o at h1
        obtain ⟨res, r'⟩ := o
        exact ⟨used ++ _, by rw [h, h1, List.append_assoc]; rfl⟩
      · have h1 := Src.read_stream c inner
        generalize Src.read c inner = o at h1
        obtain ⟨res, r'⟩ := o
        cases res with
        | error e => exact ⟨used, by rw [h, h1]⟩
        | ok l =>
          refine ⟨used ++ l.take n, ?_⟩
          simp only at h1 ⊢
          rw [h, h1, List.append_assoc, ← List.append_assoc (l.take n), List.take_append_drop]
    | cons b l =>
      refine ⟨used ++ (b :: l).take n, ?_⟩
      simp only
      rw [h, List.append_assoc, ← List.append_assoc ((b :: l).take n), List.take_append_drop]
  have hs : ∀ n (r : BufReader Src), r.Kept all → BufReader.Kept all (Read.reserve n r) := fun _ _ h => h
  refine module_upkeep hr hs fun n => ?_
  rintro ⟨c, buf, inner⟩ res r' hd hn ⟨used, h⟩
  simp only [BufReader.exact] at hd
  split at hd
  · cases hd
    refine ⟨used ++ buf.take n, ?_⟩
    simp only at h ⊢
    rw [h, List.append_assoc, ← List.append_assoc (buf.take n), List.take_append_drop]
  · exact readExact_upkeep hr hs n _ _ _ hd hn ⟨used, h⟩

end Wadec
