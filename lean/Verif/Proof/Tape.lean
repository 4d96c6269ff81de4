import Verif.Props.LastRead
import Verif.Proof.DuoAll

/-! C80: the run on a reader, and the run on a reader that delivers only the first bytes and then
fails. -/

namespace Wadec

open LawfulRead Spec

variable {σ : Type} {I : Impl σ} {ρ : List Ev → Nat}

/-- The reader that answers by a script. -/
def tape : Impl (List Ev) where
  read n evs := ((Src.read n ⟨evs, []⟩).1, (Src.read n ⟨evs, []⟩).2.evs)
  fits := by
    intro n s bs s' h
    cases h' : Src.read n ⟨s, []⟩ with
    | mk o t =>
      rw [h'] at h
      cases h
      match s, h' with
      | [], h' => cases h'; simp
      | .fail e :: t, h' => cases h'
      | .data d :: t, h' =>
        simp only [Src.read] at h'
        split at h' <;> cases h'
        · assumption
        · rw [List.length_take]; omega

theorem tape_nil (n : Nat) : tape.read n [] = (.ok [], []) := rfl
theorem tape_fail (n : Nat) (e : IoError) (t : List Ev) : tape.read n (.fail e :: t) = (.error e, t) := rfl
theorem tape_fits {n : Nat} {d : Bytes} (t : List Ev) (h : d.length ≤ n) :
    tape.read n (.data d :: t) = (.ok d, t) := by
  simp only [tape, Src.read, if_pos h]
theorem tape_split {n : Nat} {d : Bytes} (t : List Ev) (h : ¬ d.length ≤ n) :
    tape.read n (.data d :: t) = (.ok (d.take n), .data (d.drop n) :: t) := by
  simp only [tape, Src.read, if_neg h]

theorem tape_of_rec {b : Nat} (T : List Ev) :
    Sim (fun (r : Rec I ρ b) (t : Rec tape ρ b) => T = r.calls ++ t.state ∧ r.calls = t.calls) where
  read := by
    rintro n r res r' t' hr ⟨hT, hp⟩
    rw [rec_read] at hr
    generalize hi : I.read n r.state = o at hr
    obtain ⟨res, s1⟩ := o
    cases hr
    refine ⟨⟨Ev.ofResult res :: t'.state, r.calls⟩, ⟨by simp [hT], rfl⟩, ?_⟩
    rw [rec_read]
    simp only at hp
    cases res with
    | error e =>
      simp only [Ev.ofResult, tape_fail]
      simp only [Ev.ofResult] at hp
      rw [hp]
    | ok bs =>
      simp only [Ev.ofResult, tape_fits _ (I.fits hi)]
      simp only [Ev.ofResult] at hp
      rw [hp]
  weight := fun _ => Nat.le_refl _
  reserve := fun h => ⟨_, h, rfl⟩
  room := fun h => by
    simp only [Read.room]
    rw [h.2]

/-- Every run is a run on the script of its calls. -/
theorem replay {s s' : σ} {res : Res DecodeModuleError Module} {calls : List Ev}
    (h : Returns I ρ s res calls s') : Returns tape ρ calls res calls [] := by
  obtain ⟨b, h, hn⟩ := h
  obtain ⟨⟨e1, c1⟩, ⟨h1, h2⟩, h3⟩ := module_sims (tape_of_rec (I := I) (ρ := ρ) (b := b) calls)
    _ _ _ ⟨[], calls⟩ h hn ⟨by simp, rfl⟩
  simp only [List.nil_append] at h1 h2
  subst h1 h2
  exact ⟨b, h3, hn⟩

/-- More budget does no harm. -/
theorem returns_more {s s' : σ} {res : Res DecodeModuleError Module} {calls : List Ev}
    (h : Returns I ρ s res calls s') : ∃ b0, ∀ b, b0 ≤ b →
      decodeModule (⟨s, []⟩ : Rec I ρ b) = (res, ⟨s', calls⟩) := by
  obtain ⟨b0, h, hn⟩ := h
  refine ⟨b0, fun b hb => ?_⟩
  obtain ⟨⟨x, y⟩, ⟨e, f⟩, g⟩ := module_sims (rec_of_rec (I := I) (ρ := ρ) hb) _ _ _ ⟨s', calls⟩ h hn ⟨rfl, rfl⟩
  simp only at e f
  subst e f
  exact g

theorem tape_data {n : Nat} {evs evs' : List Ev} {b : UInt8} {d : Bytes} (hn : 0 < n)
    (h : tape.read n evs = (.ok (b :: d), evs')) :
    Src.bytes evs = (b :: d) ++ Src.bytes evs' ∧ Src.ending evs' = Src.ending evs ∧
      Src.evsWeight evs' < Src.evsWeight evs := by
  match evs, h with
  | [], h => cases h
  | .fail e :: t, h => cases h
  | .data c :: t, h =>
    by_cases hl : c.length ≤ n
    · rw [tape_fits _ hl] at h
      cases h
      exact ⟨rfl, rfl, by simp only [Src.evsWeight]; omega⟩
    · rw [tape_split _ hl] at h
      simp only [Prod.mk.injEq, Except.ok.injEq] at h
      obtain ⟨h1, rfl⟩ := h
      have hd : c.drop n ≠ [] := by
        intro h0
        have := congrArg List.length h0
        rw [List.length_drop, List.length_nil] at this
        omega
      obtain ⟨x, xs, hx⟩ := List.exists_cons_of_ne_nil hd
      have hc : c = b :: d ++ x :: xs := by rw [← h1, ← hx, List.take_append_drop]
      rw [hx]
      subst hc
      refine ⟨by simp [Src.bytes], rfl, ?_⟩
      simp only [Src.evsWeight, List.length_append, List.length_cons]
      omega

theorem tape_winds : WindsDown tape Src.evsWeight := by
  intro n s hn
  generalize h : tape.read n s = o
  match o, h with
  | (.ok [], s'), h =>
    match s, h with
    | [], h => cases h; exact Nat.le_refl _
    | .fail e :: t, h => cases h
    | .data c :: t, h =>
      by_cases hl : c.length ≤ n
      · rw [tape_fits _ hl] at h
        cases h
        simp only [Src.evsWeight]; omega
      · rw [tape_split _ hl] at h
        simp only [Prod.mk.injEq, Except.ok.injEq] at h
        have := congrArg List.length h.1
        rw [List.length_take, List.length_nil] at this
        omega
  | (.ok (b :: d), s'), h => exact (tape_data hn h).2.2
  | (.error .interrupted, s'), h =>
    match s, h with
    | [], h => cases h
    | .fail e :: t, h => rw [tape_fail] at h; cases h; simp only [Src.evsWeight]; omega
    | .data c :: t, h =>
      by_cases hl : c.length ≤ n
      · rw [tape_fits _ hl] at h; cases h
      · rw [tape_split _ hl] at h; cases h
  | (.error .unexpectedEof, s'), h =>
    match s, h with
    | [], h => cases h
    | .fail e :: t, h => rw [tape_fail] at h; cases h; simp only [Src.evsWeight]; omega
    | .data c :: t, h =>
      by_cases hl : c.length ≤ n
      · rw [tape_fits _ hl] at h; cases h
      · rw [tape_split _ hl] at h; cases h
  | (.error (.other y), s'), h =>
    match s, h with
    | [], h => cases h
    | .fail e :: t, h => rw [tape_fail] at h; cases h; simp only [Src.evsWeight]; omega
    | .data c :: t, h =>
      by_cases hl : c.length ≤ n
      · rw [tape_fits _ hl] at h; cases h
      · rw [tape_split _ hl] at h; cases h

theorem tape_delivers : ∀ k evs, Src.evsWeight evs < k → Delivers tape k evs (Src.bytes evs) (Src.ending evs)
  | 0, _, h => absurd h (by omega)
  | k + 1, evs, hk => by
    intro n hn
    have hw := tape_winds n evs hn
    generalize h : tape.read n evs = o at hw
    match o, h, hw with
    | (.ok [], s'), h, _ =>
      match evs, h with
      | [], h => exact ⟨rfl, rfl⟩
      | .fail e :: t, h => cases h
      | .data [] :: t, h => exact ⟨rfl, rfl⟩
      | .data (c :: cs) :: t, h =>
        by_cases hl : (c :: cs).length ≤ n
        · rw [tape_fits _ hl] at h; cases h
        · rw [tape_split _ hl] at h
          simp only [Prod.mk.injEq, Except.ok.injEq] at h
          have := congrArg List.length h.1
          rw [List.length_take, List.length_nil] at this
          omega
    | (.ok (b :: d), s'), h, hw =>
      have := tape_data hn h
      refine ⟨_, this.1, ?_⟩
      rw [← this.2.1]
      exact tape_delivers k s' (by omega)
    | (.error .interrupted, s'), h, hw =>
      match evs, h with
      | [], h => cases h
      | .fail e :: t, h =>
        rw [tape_fail] at h
        cases h
        simp only at hw
        exact tape_delivers k _ (by omega)
      | .data c :: t, h =>
        by_cases hl : c.length ≤ n
        · rw [tape_fits _ hl] at h; cases h
        · rw [tape_split _ hl] at h; cases h
    | (.error .unexpectedEof, s'), h, _ =>
      match evs, h with
      | [], h => cases h
      | .fail e :: t, h => cases h; exact ⟨rfl, rfl⟩
      | .data c :: t, h =>
        by_cases hl : c.length ≤ n
        · rw [tape_fits _ hl] at h; cases h
        · rw [tape_split _ hl] at h; cases h
    | (.error (.other y), s'), h, _ =>
      match evs, h with
      | [], h => cases h
      | .fail e :: t, h => cases h; exact ⟨rfl, rfl⟩
      | .data c :: t, h =>
        by_cases hl : c.length ≤ n
        · rw [tape_fits _ hl] at h; cases h
        · rw [tape_split _ hl] at h; cases h

/-! ### The script cut behind the first bytes -/

/-- The part of a script that delivers the bytes `q`, if these are its first bytes. -/
def keep : Bytes → List Ev → List Ev
  | q, .fail .interrupted :: t => .fail .interrupted :: keep q t
  | [], _ => []
  | b :: q, .data bs :: t =>
    if bs.length ≤ (b :: q).length then .data bs :: keep ((b :: q).drop bs.length) t
    else [.data (b :: q)]
  | _, _ => []

theorem keep_int (q : Bytes) (t : List Ev) :
    keep q (.fail .interrupted :: t) = .fail .interrupted :: keep q t := by
  cases q <;> rfl

theorem keep_data {q bs : Bytes} (t : List Ev) (hq : q ≠ []) (h : bs.length ≤ q.length) :
    keep q (.data bs :: t) = .data bs :: keep (q.drop bs.length) t := by
  cases q with
  | nil => exact absurd rfl hq
  | cons b q => simp only [keep, if_pos h]

theorem keep_long {q bs : Bytes} (t : List Ev) (hq : q ≠ []) (h : ¬ bs.length ≤ q.length) :
    keep q (.data bs :: t) = [.data q] := by
  cases q with
  | nil => exact absurd rfl hq
  | cons b q => simp only [keep, if_neg h]

theorem keep_nil {evs : List Ev} (h : ∀ t, evs ≠ .fail .interrupted :: t) : keep [] evs = [] := by
  match evs, h with
  | [], _ => rfl
  | .fail .interrupted :: t, h => exact absurd rfl (h t)
  | .fail .unexpectedEof :: t, _ => rfl
  | .fail (.other x) :: t, _ => rfl
  | .data c :: t, _ => rfl

/-- What is kept is kept again, whatever follows it (unless interrupted at once). -/
theorem keep_keep {z : List Ev} (hz : ∀ t, z ≠ .fail .interrupted :: t) : ∀ (evs : List Ev) (q : Bytes),
    q <+: Src.bytes evs → keep q (keep q evs ++ z) = keep q evs ∧
      Src.bytes (keep q evs ++ z) = q ++ Src.bytes z ∧ Src.ending (keep q evs ++ z) = Src.ending z
  | .fail .interrupted :: t, q, h => by
    have := keep_keep hz t q h
    rw [keep_int, List.cons_append, keep_int, this.1]
    exact ⟨rfl, this.2⟩
  | [], q, h => by
    have : q = [] := List.prefix_nil.1 h
    subst this
    exact ⟨keep_nil hz, rfl, rfl⟩
  | .fail .unexpectedEof :: t, q, h => by
    have : q = [] := List.prefix_nil.1 h
    subst this
    exact ⟨keep_nil hz, rfl, rfl⟩
  | .fail (.other x) :: t, q, h => by
    have : q = [] := List.prefix_nil.1 h
    subst this
    exact ⟨keep_nil hz, rfl, rfl⟩
  | .data [] :: t, q, h => by
    have : q = [] := List.prefix_nil.1 h
    subst this
    exact ⟨keep_nil hz, rfl, rfl⟩
  | .data (c :: cs) :: t, q, h => by
    by_cases hq : q = []
    · subst hq
      exact ⟨keep_nil hz, rfl, rfl⟩
    · obtain ⟨b, q', rfl⟩ := List.exists_cons_of_ne_nil hq
      by_cases hl : (c :: cs).length ≤ (b :: q').length
      · have h1 : (b :: q').drop (c :: cs).length <+: Src.bytes t := by
          obtain ⟨x, hx⟩ := List.prefix_of_prefix_length_le (List.prefix_append (c :: cs) (Src.bytes t)) h hl
          have h : (b :: q') <+: (c :: cs) ++ Src.bytes t := h
          rw [← hx] at h ⊢
          rw [List.drop_left]
          exact (List.prefix_append_right_inj _).1 h
        have ih := keep_keep hz t _ h1
        rw [keep_data t hq hl, List.cons_append, keep_data _ hq hl, ih.1]
        have h2 : b :: q' = (c :: cs) ++ (b :: q').drop (c :: cs).length := by
          have : (c :: cs) <+: (b :: q') :=
            List.prefix_of_prefix_length_le (List.prefix_append _ _) h hl
          obtain ⟨x, hx⟩ := this
          rw [← hx]
          simp
        refine ⟨rfl, ?_, ih.2.2⟩
        show (c :: cs) ++ Src.bytes _ = _
        rw [ih.2.1, ← List.append_assoc, ← h2]
      · rw [keep_long t hq hl]
        refine ⟨?_, rfl, rfl⟩
        rw [List.cons_append, keep_data _ hq (Nat.le_refl _), List.drop_length, List.nil_append, keep_nil hz]

/-! ### The scene -/

theorem stream_snoc (c : List Ev) (e : Ev) : Src.stream (c ++ [e]) = Src.stream c ++ Src.stream [e] := by
  induction c with
  | nil => rfl
  | cons x t ih =>
    cases x with
    | data d => simp only [List.cons_append, Src.stream, ih, List.append_assoc]
    | fail y => simp only [List.cons_append, Src.stream, ih]

theorem ended_snoc {c : List Ev} {e : Ev} : Ended (c ++ [e]) ↔ Ended c ∨ e.Stops := by
  rw [stops_iff, stops_iff]
  constructor
  · rintro ⟨x, hx, h⟩
    rcases List.mem_append.1 hx with hx | hx
    · exact .inl ⟨x, hx, h⟩
    · rw [List.mem_singleton] at hx
      exact .inr (hx ▸ h)
  · rintro (⟨x, hx, h⟩ | h)
    · exact ⟨x, List.mem_append_left _ hx, h⟩
    · exact ⟨e, by simp, h⟩

/-- The run on a script, and the run on its first bytes `p`, followed by the failure `x`. -/
def tapes (p : Bytes) (x : IoError) (b : Nat) : Scene (Rec tape ρ b) (Rec tape ρ b) where
  Rel r s := r.calls = s.calls ∧ ¬ Ended r.calls ∧ ∃ q, p = Src.stream r.calls ++ q ∧
    q <+: Src.bytes r.state ∧ s.state = keep q r.state ++ [.fail x]
  Beyond r := Ended r.calls ∨ ¬ Src.stream r.calls <+: p
  Cut s := s.state = [.fail x] ∧ ¬ Ended s.calls ∧ Src.stream s.calls = p
  Done s := Ended s.calls ∧ Src.bytes s.calls = p
  N r := ∀ pre, Src.stream r.calls ≠ pre ++ [0]
  X := x

theorem tapes_lamp {p : Bytes} {x : IoError} {b : Nat} : Lamp (tapes (ρ := ρ) p x b).N := by
  have hs : ∀ {r : Rec tape ρ b} {c r'}, Read.read 1 r = (.ok [c], r') → c ≠ 0 →
      (tapes (ρ := ρ) p x b).N r' := by
    intro r c r' h hc pre he
    rw [rec_read] at h
    simp only [Prod.mk.injEq] at h
    obtain ⟨h1, rfl⟩ := h
    simp only [h1, stream_snoc, Ev.ofResult, Src.stream, List.append_nil] at he
    have := List.append_inj_right' he rfl
    exact hc (List.cons.inj this).1
  refine ⟨⟨fun _ h hc => hs h hc, ?_, ?_⟩, hs⟩
  · intro n r r' hN _ h pre he
    rw [rec_read] at h
    simp only [Prod.mk.injEq] at h
    obtain ⟨h1, rfl⟩ := h
    simp only [h1, stream_snoc, Ev.ofResult, Src.stream, List.append_nil] at he
    exact hN pre he
  · intro n r e r' hN _ h pre he
    rw [rec_read] at h
    simp only [Prod.mk.injEq] at h
    obtain ⟨h1, rfl⟩ := h
    simp only [h1, stream_snoc, Ev.ofResult, Src.stream, List.append_nil] at he
    exact hN pre he

/-- The first bytes of a script, read in pieces. -/
theorem keep_read {n : Nat} {q : Bytes} {evs : List Ev} {x : IoError} (hn : 0 < n) (hq : q <+: Src.bytes evs) :
    (∃ b d q', q = (b :: d) ++ q' ∧ (tape.read n evs).1 = .ok (b :: d) ∧
      (tape.read n (keep q evs ++ [.fail x])).1 = .ok (b :: d) ∧ q' <+: Src.bytes (tape.read n evs).2 ∧
      (tape.read n (keep q evs ++ [.fail x])).2 = keep q' (tape.read n evs).2 ++ [.fail x]) ∨
    ((tape.read n evs).1 = .error .interrupted ∧
      (tape.read n (keep q evs ++ [.fail x])).1 = .error .interrupted ∧ q <+: Src.bytes (tape.read n evs).2 ∧
      (tape.read n (keep q evs ++ [.fail x])).2 = keep q (tape.read n evs).2 ++ [.fail x]) ∨
    (q = [] ∧ (tape.read n (keep q evs ++ [.fail x])).1 = .error x ∧
      (Ev.ofResult (tape.read n evs).1).Stops) ∨
    (q = [] ∧ (tape.read n (keep q evs ++ [.fail x])).1 = .error x ∧ ∃ b d, (tape.read n evs).1 = .ok (b :: d)) ∨
    (q ≠ [] ∧ q.length < n ∧ (tape.read n (keep q evs ++ [.fail x])) = (.ok q, [.fail x]) ∧
      ∃ d, (tape.read n evs).1 = .ok d ∧ q.length < d.length) := by
  match evs, hq with
  | .fail .interrupted :: t, hq =>
    rw [keep_int, List.cons_append, tape_fail, tape_fail]
    exact .inr (.inl ⟨rfl, rfl, hq, rfl⟩)
  | [], hq =>
    have : q = [] := List.prefix_nil.1 hq
    subst this
    exact .inr (.inr (.inl ⟨rfl, rfl, .inl rfl⟩))
  | .fail .unexpectedEof :: t, hq =>
    have : q = [] := List.prefix_nil.1 hq
    subst this
    exact .inr (.inr (.inl ⟨rfl, rfl, .inr ⟨_, rfl, by decide⟩⟩))
  | .fail (.other y) :: t, hq =>
    have : q = [] := List.prefix_nil.1 hq
    subst this
    exact .inr (.inr (.inl ⟨rfl, rfl, .inr ⟨_, rfl, by simp⟩⟩))
  | .data [] :: t, hq =>
    have : q = [] := List.prefix_nil.1 hq
    subst this
    exact .inr (.inr (.inl ⟨rfl, rfl, .inl rfl⟩))
  | .data (c :: cs) :: t, hq =>
    by_cases h0 : q = []
    · subst h0
      refine .inr (.inr (.inr (.inl ⟨rfl, rfl, ?_⟩)))
      by_cases hl : (c :: cs).length ≤ n
      · rw [tape_fits _ hl]; exact ⟨c, cs, rfl⟩
      · rw [tape_split _ hl]
        obtain ⟨m, rfl⟩ : ∃ m, n = m + 1 := ⟨n - 1, by omega⟩
        exact ⟨c, cs.take m, rfl⟩
    · have hq : q <+: (c :: cs) ++ Src.bytes t := hq
      by_cases hk : (c :: cs).length ≤ q.length
      · obtain ⟨q', rfl⟩ := List.prefix_of_prefix_length_le (List.prefix_append (c :: cs) (Src.bytes t)) hq hk
        have hq' := (List.prefix_append_right_inj _).1 hq
        rw [keep_data _ h0 hk, List.drop_left,
          show Ev.data (c :: cs) :: keep q' t ++ [.fail x] = .data (c :: cs) :: (keep q' t ++ [.fail x]) from rfl]
        by_cases hl : (c :: cs).length ≤ n
        · rw [tape_fits _ hl, tape_fits _ hl]
          exact .inl ⟨c, cs, q', rfl, rfl, rfl, hq', rfl⟩
        · rw [tape_split _ hl, tape_split _ hl]
          obtain ⟨m, rfl⟩ : ∃ m, n = m + 1 := ⟨n - 1, by omega⟩
          obtain ⟨y, ys, hy⟩ := List.exists_cons_of_ne_nil (l := (c :: cs).drop (m + 1)) (by
            intro h
            have := congrArg List.length h
            rw [List.length_drop, List.length_nil] at this
            omega)
          have hc : c :: cs = (c :: cs.take m) ++ y :: ys := by
            rw [← hy, show c :: cs.take m = (c :: cs).take (m + 1) from rfl, List.take_append_drop]
          refine .inl ⟨c, cs.take m, y :: ys ++ q', ?_, rfl, rfl, ?_, ?_⟩
          · rw [← List.append_assoc, ← hc]
          · simp only [hy]
            exact (List.prefix_append_right_inj (y :: ys)).2 hq'
          · simp only [hy]
            rw [keep_data _ (by simp) (by simp), List.drop_left]
            rfl
      · have hql : q <+: c :: cs :=
          List.prefix_of_prefix_length_le hq (List.prefix_append _ _) (by omega)
        rw [keep_long _ h0 hk, List.cons_append, List.nil_append]
        by_cases hn1 : q.length < n
        · refine .inr (.inr (.inr (.inr ⟨h0, hn1, tape_fits _ (by omega), ?_⟩)))
          by_cases hl : (c :: cs).length ≤ n
          · rw [tape_fits _ hl]; exact ⟨_, rfl, by omega⟩
          · rw [tape_split _ hl]
            exact ⟨_, rfl, by rw [List.length_take]; omega⟩
        · obtain ⟨z, hz⟩ := hql
          obtain ⟨y, ys, hy⟩ := List.exists_cons_of_ne_nil (l := q.take n) (by
            intro h
            have := congrArg List.length h
            rw [List.length_take, List.length_nil] at this
            have : q.length ≠ 0 := fun h => h0 (List.length_eq_zero_iff.1 h)
            omega)
          have hz1 : (c :: cs).take n = y :: ys := by
            rw [← hz, List.take_append_of_le_length (by omega), hy]
          have hz2 : (c :: cs).drop n = q.drop n ++ z := by
            rw [← hz, List.drop_append_of_le_length (by omega)]
          have hzl : z ≠ [] := by
            rintro rfl
            rw [List.append_nil] at hz
            rw [hz] at hk
            exact hk (Nat.le_refl _)
          have hz3 : ¬ (q.drop n ++ z).length ≤ (q.drop n).length := by
            rw [List.length_append]
            have : z.length ≠ 0 := fun h => hzl (List.length_eq_zero_iff.1 h)
            omega
          have hl : ¬ (c :: cs).length ≤ n := by omega
          rw [tape_split _ hl]
          simp only [hz1, hz2]
          refine .inl ⟨y, ys, q.drop n, by rw [← hy, List.take_append_drop], rfl, ?_, ?_, ?_⟩
          · by_cases hqn : q.length ≤ n
            · rw [tape_fits _ hqn, ← hy, List.take_of_length_le hqn]
            · rw [tape_split _ hqn, ← hy]
          · have : Src.bytes (.data (q.drop n ++ z) :: t) = (q.drop n ++ z) ++ Src.bytes t := by
              obtain ⟨u, us, hu⟩ := List.exists_cons_of_ne_nil (l := q.drop n ++ z) (by simp [hzl])
              rw [hu]; rfl
            rw [this, List.append_assoc]
            exact List.prefix_append _ _
          · by_cases hqn : q.length ≤ n
            · rw [tape_fits _ hqn, List.drop_of_length_le hqn, keep_nil (by simp)]
              rfl
            · rw [tape_split _ hqn]
              rw [keep_long _ (by
                intro h
                have := congrArg List.length h
                rw [List.length_drop, List.length_nil] at this
                omega) hz3]
              rfl

/-! ### The two scripts, side by side -/

theorem data_not_stops {b : UInt8} {d : Bytes} : ¬ (Ev.data (b :: d)).Stops := by
  rintro (h | ⟨x, h, _⟩)
  · cases h
  · cases h

theorem int_not_stops : ¬ (Ev.fail .interrupted).Stops := by
  rintro (h | ⟨x, h, hx⟩)
  · cases h
  · cases h; exact hx rfl

theorem bytes_stop {c : List Ev} {x : IoError} (h : ¬ Ended c) (hx : x ≠ .interrupted) :
    Src.bytes (c ++ [.fail x]) = Src.stream c := by
  have := (bytes_append c [.fail x]).2 h
  rw [this.1, this.2.2]
  cases x with
  | interrupted => exact absurd rfl hx
  | _ => simp [Src.bytes]

theorem not_longer {a p : Bytes} (h : p.length < a.length) : ¬ a <+: p := fun hp => by
  have := hp.length_le
  omega

theorem tapes_fair {p : Bytes} {x : IoError} {b : Nat} (hi : x ≠ .interrupted) (he : x ≠ .unexpectedEof) :
    (tapes (ρ := ρ) p x b).Fair where
  step := by
    rintro n ⟨rs, c⟩ ⟨ss, c'⟩ ⟨hc, hE, q, hp, hq, hs⟩ hn
    simp only at hc hE hp hq hs
    subst hc hs
    rw [rec_read, rec_read]
    simp only
    rcases keep_read (x := x) hn hq with ⟨b, d, q', h1, h2, h3, h4, h5⟩ | ⟨h2, h3, h4, h5⟩ | ⟨h1, h2, h3⟩ |
      ⟨h1, h2, b, d, h3⟩ | ⟨h1, h2, h3, d, h4, h5⟩
    · rw [h2, h3]
      refine .inl ⟨rfl, rfl, ?_, q', ?_, h4, h5⟩
      · simp only [Ev.ofResult, ended_snoc]
        exact fun h => h.elim hE data_not_stops
      · simp only [Ev.ofResult, stream_snoc]
        rw [hp, h1]
        simp [Src.stream]
    · rw [h2, h3]
      refine .inl ⟨rfl, rfl, ?_, q, ?_, h4, h5⟩
      · simp only [Ev.ofResult, ended_snoc]
        exact fun h => h.elim hE int_not_stops
      · simp only [Ev.ofResult, stream_snoc]
        rw [hp]
        simp [Src.stream]
    · rw [h2]
      refine .inr (.inl ⟨.inl (ended_snoc.2 (.inr h3)), rfl, ended_snoc.2 (.inr (.inr ⟨x, rfl, hi⟩)), ?_⟩)
      simp only [Ev.ofResult]
      rw [bytes_stop hE hi, hp, h1, List.append_nil]
    · rw [h2, h3]
      refine .inr (.inl ⟨.inr ?_, rfl, ended_snoc.2 (.inr (.inr ⟨x, rfl, hi⟩)), ?_⟩)
      · apply not_longer
        simp only [Ev.ofResult, stream_snoc]
        rw [hp, h1]
        simp [Src.stream]
      · simp only [Ev.ofResult]
        rw [bytes_stop hE hi, hp, h1, List.append_nil]
    · rw [h3, h4]
      obtain ⟨y, ys, hy⟩ := List.exists_cons_of_ne_nil h1
      refine .inr (.inr ⟨.inr ?_, ⟨y, ys, by rw [hy], by rw [← hy]; exact h2⟩, rfl, ?_, ?_⟩)
      · apply not_longer
        simp only [Ev.ofResult, stream_snoc]
        rw [hp]
        simp only [Src.stream, List.append_nil, List.length_append]
        omega
      · simp only [Ev.ofResult, ended_snoc]
        rw [hy]
        exact fun h => h.elim hE data_not_stops
      · simp only [Ev.ofResult, stream_snoc]
        rw [hp]
        simp [Src.stream]
  cut := by
    rintro n ⟨ss, c⟩ ⟨h1, h2, h3⟩ hn
    simp only at h1 h2 h3
    subst h1
    rw [rec_read]
    simp only [tape_fail]
    refine ⟨rfl, ended_snoc.2 (.inr (.inr ⟨x, rfl, hi⟩)), ?_⟩
    simp only [Ev.ofResult]
    rw [bytes_stop h2 hi, h3]
  far := by
    rintro n ⟨rs, c⟩ h hn
    rw [rec_read]
    rcases h with h | h
    · exact .inl (ended_snoc.2 (.inl h))
    · refine .inr fun hp => h ?_
      simp only [stream_snoc] at hp
      exact (List.prefix_append _ _).trans hp
  not := by
    rintro ⟨rs, c⟩ ⟨ss, c'⟩ ⟨hc, hE, q, hp, hq, hs⟩ h
    rcases h with h | h
    · exact hE h
    · exact h ⟨q, hp.symm⟩
  weight := fun _ => rfl
  room := by
    rintro ⟨rs, c⟩ ⟨ss, c'⟩ ⟨hc, _⟩
    simp only at hc
    subst hc
    rfl
  reserve := fun h => h
  reserveFar := fun h => h
  int := hi
  eof := he

/-! ### What the first bytes do not settle -/

/-- The run on a script and the run on its first bytes, if it goes beyond them. -/
theorem cut_run {p : Bytes} {x : IoError} {evs evs' calls : List Ev} {res : Res DecodeModuleError Module}
    (hi : x ≠ .interrupted) (he : x ≠ .unexpectedEof) (h : Returns tape ρ evs res calls evs')
    (hp : p <+: Src.bytes evs) (hb : Ended calls ∨ ¬ Src.stream calls <+: p) :
    ∃ e calls' evs'', Returns tape ρ (keep p evs ++ [.fail x]) (.err e) calls' evs'' ∧
      (ErrInfo.root e = some x ∨ ErrInfo.murky e = true) ∧ Ended calls' ∧ Src.bytes calls' = p := by
  obtain ⟨res1, c1, s1, h1⟩ := c56_terminates (ρ := ρ) tape_winds (keep p evs ++ [.fail x])
  obtain ⟨b0, h2⟩ := returns_more h
  obtain ⟨b1, h3⟩ := returns_more h1
  have h2 := h2 (b0 + b1) (by omega)
  have h3 := h3 (b0 + b1) (by omega)
  have hm := (module_duo (tapes_fair (ρ := ρ) (p := p) (b := b0 + b1) hi he) tapes_lamp).rel ⟨evs, []⟩
    ⟨keep p evs ++ [.fail x], []⟩ ⟨rfl, id, p, rfl, hp, rfl⟩
  rw [h2, h3] at hm
  have hn1 : res1 ≠ .fuel := h1.choose_spec.2
  rcases hm with hm | ⟨_, hm⟩ | ⟨_, e, hm, h4, h5⟩
  · exact absurd hm hn1
  · exact absurd hb ((tapes_fair (ρ := ρ) (p := p) (b := b0 + b1) hi he).not hm)
  · simp only at hm
    subst hm
    exact ⟨e, c1, s1, h1, h4, h5⟩

/-- The verdict of a run whose reader delivers the bytes `p` and more. -/
theorem forced_run {p : Bytes} {e : DecodeModuleError} {σ : Type} {I : Impl σ} {s s' : σ}
    {res : Res DecodeModuleError Module} {calls later : List Ev} (hF : Forced p e)
    (h : Returns I ρ s res calls s') (hp : p <+: Src.bytes (calls ++ later)) : res = .err e := by
  have h0 := c56_calls h later
  have h1 := c31_fragmentation (⟨[], calls ++ later⟩ : Script ρ 0) (⟨calls ++ later, []⟩ : Src) rfl rfl
  rw [h0] at h1
  exact h1.symm.trans (hF _ hp)

/-- Three runs cannot give the same error if the first two get to the end of `p`. -/
theorem three_runs {k l n : Nat} (hkl : k ≠ l) {p : Bytes} {evs c0 c1 c2 s0 s1 s2 : List Ev} {e : DecodeModuleError}
    (hp : p <+: Src.bytes evs)
    (h0 : Returns tape ρ (keep p evs ++ [.fail (.other k)]) (.err e) c0 s0)
    (h1 : Returns tape ρ (keep p evs ++ [.fail (.other l)]) (.err e) c1 s1)
    (h2 : Returns tape ρ (keep p evs ++ [.data [0], .fail (.other n)]) (.err e) c2 s2)
    (hE0 : Ended c0) (hE1 : Ended c1) : False := by
  have hk := keep_keep (z := [.data [0], .fail (.other n)]) (by intro t h; cases h) evs p hp
  generalize hz : keep p evs ++ [.data [0], .fail (.other n)] = z at hk h2
  have hz1 : Src.bytes z = p ++ [0] := hk.2.1
  have hpz : p <+: Src.bytes z := by rw [hz1]; exact List.prefix_append _ _
  have key : ∀ {n : Nat} {c s : List Ev}, Returns tape ρ (keep p evs ++ [.fail (.other n)]) (.err e) c s →
      Ended c → (ErrInfo.root e = some (.other n) ∨ ErrInfo.murky e = true) ∧
        (Ended c2 ∨ ¬ Src.stream c2 <+: p) ∧ (ErrInfo.murky e = true → ∀ pre, Src.stream c2 ≠ pre ++ [0]) := by
    intro n c s h hE
    obtain ⟨b0, g0⟩ := returns_more h
    obtain ⟨b2, g2⟩ := returns_more h2
    have g0 := g0 (b0 + b2) (by omega)
    have g2 := g2 (b0 + b2) (by omega)
    have hd := module_duo (tapes_fair (ρ := ρ) (p := p) (x := .other n) (b := b0 + b2) (by simp) (by simp))
      tapes_lamp
    have hB := hd.rel ⟨z, []⟩ ⟨keep p evs ++ [.fail (.other n)], []⟩
      ⟨rfl, id, p, rfl, hpz, by rw [hk.1]⟩
    have hN := hd.lit ⟨z, []⟩ e (by rw [g2])
    rw [g0, g2] at hB
    rw [g2] at hN
    rcases hB with hB | ⟨_, hB⟩ | ⟨hB, e', he, hr, _⟩
    · cases hB
    · have : c2 = c := hB.1
      exact absurd (show Ended c2 by rw [this]; exact hE) hB.2.1
    · cases he
      exact ⟨hr, hB, hN⟩
  obtain ⟨hr0, hB, hN⟩ := key h0 hE0
  obtain ⟨hr1, _⟩ := key h1 hE1
  have hm : ErrInfo.murky e = true := by
    rcases hr0 with hr0 | hr0
    · rcases hr1 with hr1 | hr1
      · rw [hr0] at hr1; cases hr1; exact absurd rfl hkl
      · exact hr1
    · exact hr0
  obtain ⟨later, hl, _⟩ := delivers_calls (tape_delivers _ z (Nat.lt_succ_self _)) (c56_trace h2)
  refine hN hm p ?_
  by_cases hE : Ended c2
  · obtain ⟨before, ev, after, hc, hbe, hev⟩ := ended_split hE
    have hst : ev.Stops := by
      rcases hev with ⟨rfl, _⟩ | ⟨x, rfl, hx⟩
      · exact .inl rfl
      · refine .inr ⟨x, rfl, ?_⟩
        rintro rfl
        exact Src.ending_ne _ hx
    have ha := c57_last h2 hc hst
    subst ha
    have hb1 := ((bytes_append c2 later).1 hE).1
    rw [hl, hz1] at hb1
    rw [hb1, hc, stream_snoc, (bytes_append before [ev]).2 hbe |>.1, (bytes_append before [ev]).2 hbe |>.2.2]
    rcases hst with rfl | ⟨x, rfl, hx⟩
    · rfl
    · cases x with
      | interrupted => exact absurd rfl hx
      | _ => rfl
  · rcases hB with hB | hB
    · exact absurd hB hE
    · have hb1 := (bytes_append c2 later).2 hE
      rw [hl, hz1, hb1.2.2] at hb1
      have hb2 := hb1.1
      by_cases hL : Src.bytes later = []
      · rw [hL, List.append_nil] at hb2
        exact hb2.symm
      · exfalso
        apply hB
        have h5 : Src.stream c2 <+: p ++ [0] := ⟨_, hb2.symm⟩
        refine List.prefix_of_prefix_length_le h5 (List.prefix_append _ _) ?_
        have h6 := congrArg List.length hb2
        have : (Src.bytes later).length ≠ 0 := fun h => hL (List.length_eq_zero_iff.1 h)
        simp only [List.length_append, List.length_cons, List.length_nil] at h6
        show (Src.stream c2).length ≤ _
        omega

/-- Bytes beyond which a run goes settle no error. -/
theorem not_forced {p : Bytes} {evs evs' calls : List Ev} {res : Res DecodeModuleError Module}
    (h : Returns tape ρ evs res calls evs') (hp : p <+: Src.bytes evs)
    (hb : Ended calls ∨ ¬ Src.stream calls <+: p) (e : DecodeModuleError) : ¬ Forced p e := by
  intro hF
  have key : ∀ n, ∃ calls' evs'', Returns tape ρ (keep p evs ++ [.fail (.other n)]) (.err e) calls' evs'' ∧
      (ErrInfo.root e = some (.other n) ∨ ErrInfo.murky e = true) ∧ Ended calls' := by
    intro n
    obtain ⟨e', c, s, h1, h2, h3, h4⟩ := cut_run (x := .other n) (by simp) (by simp) h hp hb
    have := forced_run (later := []) hF h1 (by rw [List.append_nil, h4]; exact List.prefix_refl _)
    cases this
    exact ⟨c, s, h1, h2, h3⟩
  obtain ⟨c0, s0, h0, _, hE0⟩ := key 0
  obtain ⟨c1, s1, h1, _, hE1⟩ := key 1
  obtain ⟨res2, c2, s2, h2⟩ := c56_terminates (ρ := ρ) tape_winds
    (keep p evs ++ [.data [0], .fail (.other 0)])
  obtain ⟨later, hl, _⟩ := delivers_calls (tape_delivers _ _ (Nat.lt_succ_self _)) (c56_trace h2)
  have hz1 := (keep_keep (z := [.data [0], .fail (.other 0)]) (by intro t h; cases h) evs p hp).2.1
  have h3 := forced_run (later := later) hF h2 (by rw [hl, hz1]; exact List.prefix_append _ _)
  subst h3
  exact three_runs (by omega) hp h0 h1 h2 hE0 hE1

end Wadec
