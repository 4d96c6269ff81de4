import Verif.Props.Robust
import Verif.Proof.CalmAll
import Verif.Spec.Streams

/-! C75: modules inside longer streams. -/

namespace Wadec

open LawfulRead Spec

section
variable {R S : Type} [LawfulRead R] [LawfulRead S]

/-- While the limit of a `Take` is within what its reader delivers, the reader never gets to its end. -/
theorem take_watched (r : R) (n : Nat) :
    Watched (fun t : Take R => t.limit ≤ (avail t.inner).length ∧ ∃ bs, Adv bs r t.inner ∧ bs.length + t.limit = n)
      (fun t : Take R => t.limit ≤ (avail t.inner).length ∧ ∃ bs, Adv bs r t.inner ∧ bs.length + t.limit = n) := by
  have hdata : ∀ {k : Nat} {t : Take R} {b bs t'}, (t.limit ≤ (avail t.inner).length ∧ ∃ bs, Adv bs r t.inner ∧ bs.length + t.limit = n) →
      0 < k → Read.read k t = (.ok (b :: bs), t') →
      t'.limit ≤ (avail t'.inner).length ∧ ∃ bs, Adv bs r t'.inner ∧ bs.length + t'.limit = n := by
    rintro k t b bs t' ⟨h1, cs, h2, h3⟩ hk h
    obtain ⟨-, ⟨hl, ha⟩, -⟩ := LawfulRead.read_data (R := Take R) hk h
    refine ⟨?_, _, adv_trans h2 ha, by rw [List.length_append]; omega⟩
    rw [adv_avail ha, List.length_append] at h1
    omega
  have hint : ∀ {k : Nat} {t : Take R} {t'}, (t.limit ≤ (avail t.inner).length ∧ ∃ bs, Adv bs r t.inner ∧ bs.length + t.limit = n) →
      0 < k → Read.read k t = (.error .interrupted, t') →
      t'.limit ≤ (avail t'.inner).length ∧ ∃ bs, Adv bs r t'.inner ∧ bs.length + t'.limit = n := by
    rintro k t t' ⟨h1, cs, h2, h3⟩ hk h
    obtain ⟨⟨hl, ha⟩, -⟩ := LawfulRead.read_int (R := Take R) hk h
    refine ⟨?_, _, adv_trans h2 ha, by rw [List.length_append]; simp at hl ⊢; omega⟩
    rw [adv_avail ha, List.length_append] at h1
    simp at h1 hl; omega
  refine ⟨fun h => h, hdata, hint, ?_, ?_⟩
  · rintro k t h hk
    rcases ho : Read.read k t with ⟨res, t'⟩
    by_cases h0 : t.limit = 0
    · have : Read.read k t = (.ok [], t) := by simp only [Read.read, Take.read, h0, if_true]
      rw [this] at ho
      cases ho
      exact h
    · have hne : avail t ≠ [] := by
        show (avail t.inner).take t.limit ≠ []
        intro he
        have := congrArg List.length he
        simp only [List.length_take, List.length_nil] at this
        have := h.1
        omega
      cases res with
      | ok bs =>
        cases bs with
        | nil => exact absurd (LawfulRead.read_eof (R := Take R) hk ho).1 hne
        | cons b bs => exact hdata h hk ho
      | error e =>
        by_cases he : e = .interrupted
        · subst he; exact hint h hk ho
        · exact absurd (LawfulRead.read_err (R := Take R) hk he ho).1 hne
  · rintro k t ⟨h1, cs, h2, h3⟩
    have ha := adv_reserve k t.inner
    refine ⟨?_, _, adv_trans h2 ha, by rw [List.length_append]; exact h3⟩
    show t.limit ≤ _
    rw [adv_avail ha, List.nil_append] at h1
    exact h1

theorem readByte_limit {i : R} : (readByte : Dec (Take R) _ _) ⟨0, i⟩ = (.err .unexpectedEof, ⟨0, i⟩) := by
  simp only [readByte, readExact, readExactLoop, Bind.bind, Dec.bind, Read.read, Take.read]
  simp

/-- C75: decoding through `stream.by_ref().take(n)`, when the stream has `n` bytes.  The result is that of decoding these `n`
bytes alone, whatever follows them; the stream is left behind at most `n` bytes, none being lost: `t.limit` of them have not
been taken; and none is left if the module is accepted. -/
theorem c75_take {r : R} {n : Nat} {t : Take R} {res : Res DecodeModuleError Module} (hn : n ≤ (avail r).length)
    (h : decodeModule ({ limit := n, inner := r } : Take R) = (res, t)) :
    (decodeModule (Src.ofBytes ((avail r).take n))).1 = res ∧
    t.limit ≤ n ∧ avail t.inner = (avail r).drop (n - t.limit) ∧ fin t.inner = fin r ∧
    (∀ m, res = .ok m → t.limit = 0) := by
  have hfin : fin (⟨n, r⟩ : Take R) = .eof := if_pos hn
  have h1 := c31_fragmentation (⟨n, r⟩ : Take R) (Src.ofBytes ((avail r).take n)) (avail_ofBytes _)
    (by rw [hfin, fin_ofBytes])
  rw [h] at h1
  have h2 := module_calm (take_watched r n) ⟨n, r⟩ ⟨hn, [], adv_nil r, by simp⟩
  rw [h] at h2
  obtain ⟨h2, bs, ha, hb⟩ := h2
  simp only at h2 ha hb
  refine ⟨h1, by omega, ?_, adv_fin ha, ?_⟩
  · have : n - t.limit = bs.length := by omega
    rw [this, adv_avail ha]; simp
  · rintro m rfl
    have hm := c17_sound h
    generalize hav : avail (⟨n, r⟩ : Take R) = bs at hm
    cases hm with
    | @mk bs secs hs hw =>
      obtain ⟨r1, k, a1, av1, hk, e1⟩ := module_steps (rest := []) hs (Wadec.WellFormed.acceptable hw) (r := (⟨n, r⟩ : Take R))
        (by rw [hav, List.append_nil])
      have hl : r1.limit = 0 := by
        have hlen : (preamble ++ bs).length = n := by
          rw [← hav]
          show ((avail r).take n).length = n
          rw [List.length_take]; omega
        have := a1.1
        simp only at this
        omega
      obtain ⟨l, i⟩ := r1
      simp only at hl
      subst hl
      match k, hk with
      | k + 1, _ =>
        have e2 : decodeSectionHeader (⟨0, i⟩ : Take R) = (.ok none, ⟨0, i⟩) := by
          simp only [decodeSectionHeader, readByte_limit, if_true]
        rw [h] at e1
        simp only [sectionLoop, Bind.bind, Dec.bind, Dec.mapErr, e2, Pure.pure, Dec.ok] at e1
        have e3 : ∀ (st : LoopState) (s : Take R), (finalChecks st s).2 = s := by
          intro st s
          simp only [finalChecks]
          split
          · rfl
          · split
            · rfl
            · split <;> rfl
        have := congrArg Prod.snd e1
        rw [e3] at this
        simp only at this
        rw [this]

/-- C75: a limit the stream does not reach has no effect. -/
theorem c75_short {r : R} {n : Nat} (hn : (avail r).length < n) :
    (decodeModule ({ limit := n, inner := r } : Take R)).1 = (decodeModule r).1 :=
  c31_fragmentation r (⟨n, r⟩ : Take R) (List.take_of_length_le (Nat.le_of_lt hn)) (if_neg (Nat.not_le.2 hn))

/-- Skipping the rest of a `Take`. -/
theorem drain : ∀ (f : Nat) (acc : List UInt8) (l : Nat) (i : R), l ≤ (avail i).length → Read.weight i < f →
    ∃ i', readToEndLoop f acc (⟨l, i⟩ : Take R) = (.ok (acc ++ (avail i).take l), ⟨0, i'⟩) ∧ Adv ((avail i).take l) i i' := by
  intro f
  induction f with
  | zero => intro acc l i _ hw; omega
  | succ f ih =>
    intro acc l i hl hw
    simp only [readToEndLoop]
    rcases ho : Read.read (Read.room (⟨l, i⟩ : Take R) + 1) (⟨l, i⟩ : Take R) with ⟨res, t'⟩
    by_cases h0 : l = 0
    · subst h0
      have : Read.read (Read.room (⟨0, i⟩ : Take R) + 1) (⟨0, i⟩ : Take R) = (.ok [], ⟨0, i⟩) := by
        simp only [Read.read, Take.read, if_true]
      rw [this] at ho
      cases ho
      exact ⟨i, by simp, adv_nil i⟩
    · have hne : avail (⟨l, i⟩ : Take R) ≠ [] := by
        show (avail i).take l ≠ []
        intro he
        have := congrArg List.length he
        simp only [List.length_take, List.length_nil] at this
        omega
      cases res with
      | ok bs =>
        cases bs with
        | nil => exact absurd (LawfulRead.read_eof (R := Take R) (by omega) ho).1 hne
        | cons b bs =>
          obtain ⟨-, ⟨hl', ha⟩, hw'⟩ := LawfulRead.read_data (R := Take R) (by omega) ho
          obtain ⟨l', j⟩ := t'
          simp only at hl' ha
          have hw' : Read.weight j < Read.weight i := hw'
          obtain ⟨i', e1, a1⟩ := ih (acc ++ b :: bs) l' j
            (by have := adv_avail ha; rw [this, List.length_append] at hl; omega) (by omega)
          have hsplit : (avail i).take l = (b :: bs) ++ (avail j).take l' := by
            rw [adv_avail ha, hl', List.take_append, List.take_of_length_le (by omega)]
            simp
          refine ⟨i', ?_, by rw [hsplit]; exact adv_trans ha a1⟩
          simp only [e1, hsplit, List.append_assoc]
      | error e =>
        by_cases he : e = .interrupted
        · subst he
          obtain ⟨⟨hl', ha⟩, hw'⟩ := LawfulRead.read_int (R := Take R) (by omega) ho
          obtain ⟨l', j⟩ := t'
          simp only [List.length_nil, Nat.zero_add] at hl' ha
          subst hl'
          have hw' : Read.weight j < Read.weight i := hw'
          have hav := adv_avail ha
          rw [List.nil_append] at hav
          obtain ⟨i', e1, a1⟩ := ih acc l j (by rw [← hav]; exact hl) (by omega)
          refine ⟨i', by simp only [e1, hav], ?_⟩
          have := adv_trans ha a1
          rwa [List.nil_append, ← hav] at this
        · exact absurd (LawfulRead.read_err (R := Take R) (by omega) he ho).1 hne

/-- C75: modules that follow one another in a stream: each is judged as if it were alone, whether the others are accepted or
not, and the stream is left behind the last one. -/
theorem c75_archive : ∀ (bss : List Bytes) (rest : Bytes) (r : R), avail r = bss.flatten ++ rest →
    ∃ r', decodeArchive (bss.map List.length) r = (bss.map fun b => (decodeModule (Src.ofBytes b)).1, r') ∧
      avail r' = rest ∧ fin r' = fin r := by
  intro bss
  induction bss with
  | nil => intro rest r h; exact ⟨r, rfl, by simpa using h, rfl⟩
  | cons b bss ih =>
    intro rest r h
    rw [List.flatten_cons, List.append_assoc] at h
    rcases ho : decodeModule (⟨b.length, r⟩ : Take R) with ⟨res, ⟨l, i⟩⟩
    obtain ⟨h1, h2, h3, h4, -⟩ := c75_take (by rw [h]; simp) ho
    simp only at h2 h3 h4
    rw [h, List.take_left] at h1
    have hl : l ≤ (avail i).length := by
      rw [h3, h, List.length_drop, List.length_append]; omega
    obtain ⟨j, e1, a1⟩ := drain (Read.weight i + 1) [] l i hl (by omega)
    have e1 : readToEnd (⟨l, i⟩ : Take R) = (.ok (_ ++ _), ⟨0, j⟩) := e1
    have hj : avail j = bss.flatten ++ rest := by
      have := adv_avail a1
      have h5 : (avail i).drop l = avail j := by
        have h6 : (avail i).take l ++ (avail i).drop l = (avail i).take l ++ avail j := by rw [List.take_append_drop]; exact this
        exact List.append_cancel_left h6
      rw [← h5, h3, List.drop_drop, h, show b.length - l + l = b.length by omega, List.drop_left]
    obtain ⟨r', e2, h7, h8⟩ := ih rest j hj
    refine ⟨r', ?_, h7, by rw [h8, adv_fin a1, h4]⟩
    simp only [List.map_cons, decodeArchive, ho, e1, e2, h1]

/-- C75: looking at the first bytes and putting them back changes nothing. -/
theorem c75_peek (k : Nat) (r : R) (hk : k ≤ (avail r).length) :
    peekThenDecode k r = some ((avail r).take k, (decodeModule r).1) := by
  obtain ⟨r', h1, h2⟩ := readExact_ok (r := r) (bs := (avail r).take k) (rest := (avail r).drop k) (by simp)
  rw [List.length_take, Nat.min_eq_left hk] at h1
  simp only [peekThenDecode, h1, Option.some.injEq, Prod.mk.injEq, true_and]
  refine c31_fragmentation r (⟨(avail r).take k, r'⟩ : Chain R) ?_ ?_
  · show (avail r).take k ++ avail r' = avail r
    rw [← adv_avail h2]
  · show fin r' = fin r
    exact adv_fin h2

end

/-! ### Instances -/

/-- Two sample modules with garbage of three bytes between them, and more bytes and a failing reader behind. -/
example : ∃ m e r', decodeArchive [71, 3, 71] ({ evs := [.data (preamble ++ bytesA), .fail .interrupted,
      .data ([1, 2, 3] ++ (preamble ++ bytesA)), .data [9], .fail (.other 5)] } : Src) = ([.ok m, .err e, .ok m], r') ∧
    avail r' = [9] ∧ fin r' = .fail (.other 5) := by
  obtain ⟨s', h⟩ := (c18_bytes _ _).2 bModA
  obtain ⟨r', h1, h2, h3⟩ := c75_archive [preamble ++ bytesA, [1, 2, 3], preamble ++ bytesA] [9]
    ({ evs := [.data (preamble ++ bytesA), .fail .interrupted, .data ([1, 2, 3] ++ (preamble ++ bytesA)), .data [9],
      .fail (.other 5)] } : Src) (by decide)
  refine ⟨assemble secsA, .ParsePreamble (.Io .unexpectedEof), r', ?_, h2, by rw [h3]; rfl⟩
  have e : ([preamble ++ bytesA, [1, 2, 3], preamble ++ bytesA].map List.length) = [71, 3, 71] := by decide
  rw [← e, h1]
  have hg : (decodeModule (Src.ofBytes [1, 2, 3])).1 = .err (.ParsePreamble (.Io .unexpectedEof)) := rfl
  simp only [List.map_cons, List.map_nil, h, hg]

example : ∃ m, peekThenDecode 4 (Src.ofBytes (preamble ++ bytesA)) = some ([0x00, 0x61, 0x73, 0x6D], .ok m) := by
  obtain ⟨s', h⟩ := (c18_bytes _ _).2 bModA
  rw [c75_peek 4 _ (by rw [avail_ofBytes]; decide), h, avail_ofBytes]
  exact ⟨_, rfl⟩

end Wadec
