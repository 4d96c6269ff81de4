import Verif.Spec.Reader

/-! Laws of readers: what a reader still delivers (`avail`), how that ends (`fin`), and the
relation "`r'` is `r` after exactly the bytes `bs` have been taken from it" (`Adv bs r r'`). -/

namespace Wadec

open LawfulRead

theorem Src.ending_ne : ∀ evs, Src.ending evs ≠ .fail .interrupted := by
  intro evs
  fun_induction Src.ending evs with
  | case3 e t h => intro hh; cases hh; exact h rfl
  | _ => simp_all

theorem Src.bytes_le : ∀ evs, (Src.bytes evs).length ≤ Src.evsWeight evs := by
  intro evs
  fun_induction Src.bytes evs <;> simp_all [Src.evsWeight] <;> omega

theorem Src.bytes_data (bs : List UInt8) (t : List Ev) (h : bs ≠ []) :
    Src.bytes (.data bs :: t) = bs ++ Src.bytes t := by
  cases bs with
  | nil => exact absurd rfl h
  | cons => rfl

theorem Src.ending_data (bs : List UInt8) (t : List Ev) (h : bs ≠ []) :
    Src.ending (.data bs :: t) = Src.ending t := by
  cases bs with
  | nil => exact absurd rfl h
  | cons => rfl

instance : LawfulRead Src where
  avail s := Src.bytes s.evs
  fin s := Src.ending s.evs
  Adv bs s s' := Src.bytes s.evs = bs ++ Src.bytes s'.evs ∧ Src.ending s'.evs = Src.ending s.evs ∧
    Src.stream s.evs = bs ++ Src.stream s'.evs
  adv_nil r := ⟨rfl, rfl, rfl⟩
  adv_trans h h' := ⟨by rw [h.1, h'.1, List.append_assoc], h'.2.1.trans h.2.1,
    by rw [h.2.2, h'.2.2, List.append_assoc]⟩
  adv_avail h := h.1
  adv_fin h := h.2.1
  fin_ne r := Src.ending_ne _
  avail_le r := Src.bytes_le _
  adv_reserve n r := ⟨rfl, rfl, rfl⟩
  read_data := by
    intro n r b bs r' hn h
    obtain ⟨evs, log⟩ := r
    simp only [Read.read, Src.read] at h
    match evs with
    | [] => simp at h
    | .fail e :: t => simp at h
    | .data ds :: t =>
      simp only at h
      split at h
      · simp only [Prod.mk.injEq, Except.ok.injEq] at h
        obtain ⟨h1, h2⟩ := h
        subst h1; subst h2
        exact ⟨by assumption, ⟨Src.bytes_data _ _ (by simp), (Src.ending_data _ _ (by simp)).symm, rfl⟩,
          by simp [Read.weight, Src.evsWeight]⟩
      · rename_i hlen
        simp only [Prod.mk.injEq, Except.ok.injEq] at h
        obtain ⟨h1, h2⟩ := h
        subst h2
        have hd : ds.drop n ≠ [] := by
          intro hc
          have := congrArg List.length hc
          simp at this; omega
        have hds : ds ≠ [] := by rintro rfl; simp at hlen
        refine ⟨by rw [← h1]; simp; omega, ⟨?_, ?_, ?_⟩, ?_⟩
        · rw [Src.bytes_data _ _ hd, Src.bytes_data _ _ hds, ← List.append_assoc, ← h1,
            List.take_append_drop]
        · rw [Src.ending_data _ _ hd, Src.ending_data _ _ hds]
        · simp only [Src.stream]
          rw [← List.append_assoc, ← h1, List.take_append_drop]
        · simp [Read.weight, Src.evsWeight]; omega
  read_eof := by
    intro n r r' hn h
    obtain ⟨evs, log⟩ := r
    simp only [Read.read, Src.read] at h
    match evs with
    | [] => exact ⟨rfl, rfl⟩
    | .fail e :: t => simp at h
    | .data ds :: t =>
      simp only at h
      split at h
      · simp only [Prod.mk.injEq, Except.ok.injEq] at h
        rw [h.1]; exact ⟨rfl, rfl⟩
      · rename_i hlen
        simp only [Prod.mk.injEq, Except.ok.injEq] at h
        have := congrArg List.length h.1
        simp at this
        rcases this with h0 | h0
        · omega
        · subst h0; simp at hlen
  read_int := by
    intro n r r' hn h
    obtain ⟨evs, log⟩ := r
    simp only [Read.read, Src.read] at h
    match evs with
    | [] => simp at h
    | .fail e :: t =>
      simp only [Prod.mk.injEq, Except.error.injEq] at h
      obtain ⟨h1, h2⟩ := h
      subst h1; subst h2
      exact ⟨⟨rfl, rfl, rfl⟩, by simp [Read.weight, Src.evsWeight]⟩
    | .data ds :: t => simp only at h; split at h <;> simp at h
  read_err := by
    intro n r e r' hn he h
    obtain ⟨evs, log⟩ := r
    simp only [Read.read, Src.read] at h
    match evs with
    | [] => simp at h
    | .fail e :: t =>
      simp only [Prod.mk.injEq, Except.error.injEq] at h
      obtain ⟨h1, h2⟩ := h
      subst h1; subst h2
      cases e <;> first | exact absurd rfl he | exact ⟨rfl, rfl⟩
    | .data ds :: t => simp only at h; split at h <;> simp at h

/-! ### `Take` -/

instance {R : Type} [LawfulRead R] : LawfulRead (Take R) where
  avail t := (avail t.inner).take t.limit
  fin t := if t.limit ≤ (avail t.inner).length then .eof else fin t.inner
  Adv bs t t' := t.limit = bs.length + t'.limit ∧ Adv bs t.inner t'.inner
  adv_nil r := ⟨by simp, adv_nil _⟩
  adv_trans h h' := ⟨by rw [h.1, h'.1]; simp; omega, adv_trans h.2 h'.2⟩
  adv_avail := by
    intro bs t t' h
    rw [h.1, adv_avail h.2, List.take_append, List.take_of_length_le (by omega)]
    simp
  adv_fin := by
    intro bs t t' h
    rw [adv_avail h.2, h.1, adv_fin h.2]; simp
  fin_ne t := by split <;> simp [fin_ne]
  avail_le t := by
    have := avail_le t.inner
    simp [Read.weight]; omega
  adv_reserve n t := ⟨by simp [Read.reserve], adv_reserve _ _⟩
  read_data := by
    intro n t b bs t' hn h
    simp only [Read.read, Take.read] at h
    split at h
    · simp at h
    · rename_i hl
      split at h
      · rename_i bs' i heq
        simp only [Prod.mk.injEq, Except.ok.injEq] at h
        obtain ⟨h1, h2⟩ := h
        subst h1; subst h2
        have := read_data (by omega) heq
        exact ⟨by omega, ⟨by simp only; omega, this.2.1⟩, by simpa [Read.weight] using this.2.2⟩
      · simp at h
  read_eof := by
    intro n t t' hn h
    simp only [Read.read, Take.read] at h
    split at h
    · rename_i h0
      simp [h0]
    · rename_i hl
      split at h
      · rename_i bs' i heq
        simp only [Prod.mk.injEq, Except.ok.injEq] at h
        obtain ⟨h1, h2⟩ := h
        subst h1
        have := read_eof (by omega) heq
        simp [this.1, this.2]
      · simp at h
  read_int := by
    intro n t t' hn h
    simp only [Read.read, Take.read] at h
    split at h
    · simp at h
    · split at h
      · simp at h
      · rename_i e i heq
        simp only [Prod.mk.injEq, Except.error.injEq] at h
        obtain ⟨h1, h2⟩ := h
        subst h1; subst h2
        have := read_int (by omega) heq
        exact ⟨⟨by simp, this.1⟩, by simpa [Read.weight] using this.2⟩
  read_err := by
    intro n t e t' hn he h
    simp only [Read.read, Take.read] at h
    split at h
    · simp at h
    · rename_i h0
      split at h
      · simp at h
      · rename_i e i heq
        simp only [Prod.mk.injEq, Except.error.injEq] at h
        obtain ⟨h1, h2⟩ := h
        subst h1
        have := read_err (by omega) he heq
        simp [this.1, this.2, h0]

/-! ### `Chain` -/

instance {R : Type} [LawfulRead R] : LawfulRead (Chain R) where
  avail c := c.first ++ avail c.inner
  fin c := fin c.inner
  Adv bs c c' := ∃ b1 b2, bs = b1 ++ b2 ∧ c.first = b1 ++ c'.first ∧ Adv b2 c.inner c'.inner ∧
    (b2 ≠ [] → c'.first = [])
  adv_nil c := ⟨[], [], rfl, rfl, adv_nil _, by simp⟩
  adv_trans := by
    rintro bs bs' r r' r'' ⟨b1, b2, hb, h1, h2, h3⟩ ⟨b1', b2', hb', h1', h2', h3'⟩
    refine ⟨b1 ++ b1', b2 ++ b2', ?_, by rw [h1, h1', List.append_assoc], adv_trans h2 h2', ?_⟩
    · by_cases hb2 : b2 = []
      · simp [hb, hb', hb2]
      · have := h3 hb2
        rw [this] at h1'
        simp at h1'
        simp [hb, hb', h1'.1]
    · intro hne
      by_cases hb2' : b2' = []
      · have hb2 : b2 ≠ [] := by intro hc; simp [hc, hb2'] at hne
        have := h3 hb2
        rw [this] at h1'; simp at h1'; exact h1'.2
      · exact h3' hb2'
  adv_avail := by
    rintro bs c c' ⟨b1, b2, hb, h1, h2, h3⟩
    rw [h1, adv_avail h2, hb]
    by_cases hb2 : b2 = []
    · simp [hb2]
    · simp [h3 hb2]
  adv_fin := by
    rintro bs c c' ⟨b1, b2, hb, h1, h2, h3⟩
    exact adv_fin h2
  fin_ne c := fin_ne _
  avail_le c := by
    have := avail_le c.inner
    simp [Read.weight]; omega
  adv_reserve n c := ⟨[], [], rfl, rfl, adv_reserve _ _, by simp⟩
  read_data := by
    intro n c b bs c' hn h
    simp only [Read.read, Chain.read] at h
    split at h
    · rename_i hf
      rcases heq : Read.read n c.inner with ⟨res, i⟩
      rw [heq] at h
      simp only [Prod.mk.injEq] at h
      obtain ⟨h1, h2⟩ := h
      subst h1; subst h2
      have := read_data hn heq
      exact ⟨this.1, ⟨[], b :: bs, rfl, by simp [hf], this.2.1, by simp⟩,
        by simpa [Read.weight] using by omega⟩
    · rename_i b' bs' hf
      simp only [Prod.mk.injEq, Except.ok.injEq] at h
      obtain ⟨h1, h2⟩ := h
      subst h2
      refine ⟨by rw [← h1]; simp; omega, ⟨b :: bs, [], by simp, ?_, adv_nil _, by simp⟩, ?_⟩
      · rw [← h1, hf]; simp
      · simp [Read.weight, hf]; omega
  read_eof := by
    intro n c c' hn h
    simp only [Read.read, Chain.read] at h
    split at h
    · rename_i hf
      rcases heq : Read.read n c.inner with ⟨res, i⟩
      rw [heq] at h
      simp only [Prod.mk.injEq] at h
      obtain ⟨h1, h2⟩ := h
      subst h1
      have := read_eof hn heq
      simp [hf, this.1, this.2]
    · simp at h
      omega
  read_int := by
    intro n c c' hn h
    simp only [Read.read, Chain.read] at h
    split at h
    · rename_i hf
      rcases heq : Read.read n c.inner with ⟨res, i⟩
      rw [heq] at h
      simp only [Prod.mk.injEq] at h
      obtain ⟨h1, h2⟩ := h
      subst h1; subst h2
      have := read_int hn heq
      exact ⟨⟨[], [], rfl, by simp [hf], this.1, by simp⟩, by simpa [Read.weight] using by omega⟩
    · simp at h
  read_err := by
    intro n c e c' hn he h
    simp only [Read.read, Chain.read] at h
    split at h
    · rename_i hf
      rcases heq : Read.read n c.inner with ⟨res, i⟩
      rw [heq] at h
      simp only [Prod.mk.injEq] at h
      obtain ⟨h1, h2⟩ := h
      subst h1
      have := read_err hn he heq
      simp [hf, this.1, this.2]
    · simp at h

/-! ### `read_exact` and `read_to_end` -/

theorem append_prefix {x a bs rest : List UInt8} (h : x ++ a = bs ++ rest)
    (hl : x.length ≤ bs.length) : ∃ t, bs = x ++ t ∧ a = t ++ rest := by
  rcases List.append_eq_append_iff.mp h with ⟨t, h1, h2⟩ | ⟨t, h1, h2⟩
  · exact ⟨t, h1, h2⟩
  · have : t = [] := by
      have := congrArg List.length h1
      simp at this
      exact List.eq_nil_of_length_eq_zero (by omega)
    subst this
    exact ⟨[], by simpa using h1.symm, by simpa using h2.symm⟩

section
variable {R : Type} [LawfulRead R]

theorem readExactLoop_ok : ∀ (f n : Nat) (acc : List UInt8) (r : R) (bs rest : List UInt8),
    Read.weight r < f → avail r = bs ++ rest → bs.length = n →
    ∃ r', readExactLoop f n acc r = (.ok (acc ++ bs), r') ∧ Adv bs r r' := by
  intro f
  induction f with
  | zero => intro n acc r bs rest hw; omega
  | succ f ih =>
    intro n acc r bs rest hw ha hn
    simp only [readExactLoop]
    split
    · rename_i h0
      have : bs = [] := List.eq_nil_of_length_eq_zero (by omega)
      subst this
      exact ⟨r, by simp, adv_nil r⟩
    · rename_i h0
      split
      · rename_i r' heq
        have := read_eof (by omega) heq
        rw [this.1] at ha
        have := congrArg List.length ha
        simp at this; omega
      · rename_i b bs' r' heq
        have hd := read_data (by omega) heq
        have hav := adv_avail hd.2.1
        rw [hav] at ha
        obtain ⟨t, rfl, ha'⟩ := append_prefix ha (by omega)
        obtain ⟨r'', h1, h2⟩ := ih (n - (b :: bs').length) (acc ++ (b :: bs')) r' t rest (by omega)
          ha' (by simp at hn ⊢; omega)
        exact ⟨r'', by rw [h1, List.append_assoc], adv_trans hd.2.1 h2⟩
      · rename_i r' heq
        have hd := read_int (by omega) heq
        have hav := adv_avail hd.1
        obtain ⟨r'', h1, h2⟩ := ih n acc r' bs rest (by omega) (by rw [← ha, hav]; simp) hn
        exact ⟨r'', h1, by simpa using adv_trans hd.1 h2⟩
      · rename_i e r' hne heq
        have := read_err (by omega) hne heq
        rw [this.1] at ha
        have := congrArg List.length ha
        simp at this; omega

theorem readExactLoop_err : ∀ (f n : Nat) (acc : List UInt8) (r : R),
    Read.weight r < f → (avail r).length < n →
    ∃ r', readExactLoop f n acc r = (.err (fin r).toErr, r') := by
  intro f
  induction f with
  | zero => intro n acc r hw; omega
  | succ f ih =>
    intro n acc r hw ha
    simp only [readExactLoop]
    split
    · omega
    · rename_i h0
      split
      · rename_i r' heq
        have := read_eof (by omega) heq
        exact ⟨r', by rw [this.2]; rfl⟩
      · rename_i b bs' r' heq
        have hd := read_data (by omega) heq
        have hav := adv_avail hd.2.1
        have := ih (n - (b :: bs').length) (acc ++ (b :: bs')) r' (by omega)
          (by rw [hav] at ha; simp at ha ⊢; omega)
        rw [adv_fin hd.2.1] at this
        exact this
      · rename_i r' heq
        have hd := read_int (by omega) heq
        have hav := adv_avail hd.1
        have := ih n acc r' (by omega) (by rw [hav] at ha; simpa using ha)
        rw [adv_fin hd.1] at this
        exact this
      · rename_i e r' hne heq
        have := read_err (by omega) hne heq
        exact ⟨r', by rw [this.2]; rfl⟩

theorem readExact_ok {r : R} {bs rest : List UInt8} (ha : avail r = bs ++ rest) :
    ∃ r', readExact bs.length r = (.ok bs, r') ∧ Adv bs r r' := by
  simpa [readExact] using readExactLoop_ok (Read.weight r + 1) bs.length [] r bs rest (by omega) ha rfl

theorem readExact_err {r : R} {n : Nat} (ha : (avail r).length < n) :
    ∃ r', readExact n r = (.err (fin r).toErr, r') := by
  simpa [readExact] using readExactLoop_err (Read.weight r + 1) n [] r (by omega) ha

/-- `read_to_end` on any reader: all available bytes on a clean end of file, the reader's error
otherwise. -/
theorem readToEndLoop_spec : ∀ (f : Nat) (acc : List UInt8) (r : R), Read.weight r < f →
    (fin r = .eof → ∃ r', readToEndLoop f acc r = (.ok (acc ++ avail r), r')) ∧
    (∀ e, fin r = .fail e → ∃ r', readToEndLoop f acc r = (.err e, r')) := by
  intro f
  induction f with
  | zero => intro acc r hw; omega
  | succ f ih =>
    intro acc r hw
    simp only [readToEndLoop]
    split
    · rename_i r' heq
      have := read_eof (by omega) heq
      rw [this.1, this.2]
      exact ⟨fun _ => ⟨r', by simp⟩, by simp⟩
    · rename_i b bs' r' heq
      have hd := read_data (by omega) heq
      rw [← adv_fin hd.2.1, adv_avail hd.2.1, ← List.append_assoc]
      exact ih _ r' (by omega)
    · rename_i r' heq
      have hd := read_int (by omega) heq
      rw [← adv_fin hd.1, adv_avail hd.1]
      exact ih _ r' (by omega)
    · rename_i e r' hne heq
      have := read_err (by omega) hne heq
      rw [this.1, this.2]
      refine ⟨by simp, ?_⟩
      intro e' h
      cases h
      exact ⟨r', rfl⟩

/-- `read_to_end` on a `Take`: the limit shrinks by what was read; and if the whole limit was
delivered, the inner reader has advanced by exactly those bytes. -/
theorem readToEndLoop_take : ∀ (f : Nat) (acc : List UInt8) (t : Take R), Read.weight t < f →
    (fin t = .eof → ∃ t', readToEndLoop f acc t = (.ok (acc ++ avail t), t') ∧
      t'.limit = t.limit - (avail t).length ∧ (t'.limit = 0 → Adv (avail t) t t')) := by
  intro f
  induction f with
  | zero => intro acc r hw; omega
  | succ f ih =>
    intro acc t hw hfin
    simp only [readToEndLoop]
    split
    · rename_i t' heq
      have := read_eof (by omega) heq
      rw [this.1]
      refine ⟨t', by simp, ?_, ?_⟩
      · simp only [Read.read, Take.read] at heq
        split at heq
        · cases heq; simp
        · split at heq
          · simp only [Prod.mk.injEq, Except.ok.injEq] at heq
            rw [← heq.2, heq.1]
          · simp at heq
      · intro h0
        simp only [Read.read, Take.read] at heq
        split at heq
        · cases heq; exact adv_nil _
        · split at heq
          · simp only [Prod.mk.injEq, Except.ok.injEq] at heq
            rw [← heq.2, heq.1] at h0; simp at h0; contradiction
          · simp at heq
    · rename_i b bs' t' heq
      have hd := read_data (by omega) heq
      obtain ⟨t'', h1, h2, h3⟩ := ih (acc ++ (b :: bs')) t' (by omega)
        (by rw [adv_fin hd.2.1]; exact hfin)
      rw [adv_avail hd.2.1]
      refine ⟨t'', by rw [h1, List.append_assoc], ?_, ?_⟩
      · rw [h2, hd.2.1.1]; simp; omega
      · intro h0; exact adv_trans hd.2.1 (h3 h0)
    · rename_i t' heq
      have hd := read_int (by omega) heq
      obtain ⟨t'', h1, h2, h3⟩ := ih acc t' (by omega) (by rw [adv_fin hd.1]; exact hfin)
      rw [adv_avail hd.1]
      refine ⟨t'', by rw [h1]; simp, ?_, ?_⟩
      · rw [h2, hd.1.1]; simp
      · intro h0; simpa using adv_trans hd.1 (h3 h0)
    · rename_i e t' hne heq
      have := read_err (by omega) hne heq
      rw [this.2] at hfin; cases hfin

end
end Wadec
