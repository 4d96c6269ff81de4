import Verif.Props.Instructions
import Verif.Proof.CodeEntry
import Verif.Proof.ErrPost

/-! C25, C26, C37, C38: entries of sections. -/

namespace Wadec

open LawfulRead Spec

section
variable {R : Type} [LawfulRead R]

/-- `parse_code` followed by the expansion of the locals that `decode_module` performs. -/
def decodeCodeEntry : Dec R DecodeCodeError CodeEntry := do
  let c ← parseCode
  pure ⟨expandLocals c.locals, c.expr⟩

/-- C25, C26: code entries are exactly those of the grammar, the locals being the concatenation of
the runs and the declared size being exactly the size of locals and body. -/
theorem c25_code : Decodes (decodeCodeEntry : Dec R _ _) BCode := by
  refine Decodes.of ?_ ?_
  · refine Sound.bind code_sound fun c b h => Sound.pure ?_
    rw [List.append_nil]
    exact h.toBCode
  · intro bs c h
    obtain ⟨d, hd, rfl⟩ := BCode.toBCodeD h
    exact Runs.bind_pure (f := fun c : Code => (⟨expandLocals c.locals, c.expr⟩ : CodeEntry))
      (code_runs hd)

/-- C25: a function that declares 2^32 or more locals is rejected at the first run that brings the
total there, with that total.  (`runs` are the runs before it.) -/
theorem c25_bound {r : R} {bsz bn b1 b2 rest : Bytes} {size n c : UInt32}
    {runs : List (UInt32 × ValType)} {tot : UInt64} (hsz : BU32 bsz size) (hn : BU32 bn n)
    (hr : BSeq BLocals b1 runs) (hlen : runs.length < n.toNat) (hc : BU32 b2 c)
    (h1 : (localsOf runs).length < 2 ^ 32) (h2 : tot.toNat = (localsOf runs).length + c.toNat)
    (h3 : 2 ^ 32 ≤ tot.toNat) (hfit : (bn ++ b1 ++ b2).length ≤ size.toNat)
    (ha : avail r = bsz ++ (bn ++ b1 ++ b2) ++ rest) :
    ∃ r', parseCode r = (.err (.DecodeLocalsVector (.ParseElement (UInt32.ofNat runs.length)
      (.LocalsCountOutOfBound 4294967295 tot))), r') := by
  obtain ⟨ls, hls, rfl⟩ := seq_locals_unmap hr
  rw [← expandLocals_eq, length_expandLocals] at h1 h2
  have e0 : (0 : UInt64).toNat = 0 := rfl
  obtain ⟨st, hst⟩ := seq_localSteps hls 0 (by omega)
  have hs := (localSteps_seq hst).2.1
  have hf : Fails (R := Take R) parseCodeBody (bn ++ (b1 ++ b2))
      (.DecodeLocalsVector (.ParseElement (UInt32.ofNat ls.length)
        (.LocalsCountOutOfBound 4294967295 tot))) := by
    refine Fails.bind1 (Fails.mapErr (listS_fails codeLocal_runs hn hst (by simpa using hlen) ?_))
    exact codeLocal_fails hc (by omega) (by omega) (by omega)
  rw [List.append_assoc] at hfit
  rw [List.length_map]
  refine Fails.bind2 (Runs.mapErr (decodeU32_runs hsz))
    (Fails.bind1 (Fails.withTake hfit hf)) r rest ?_
  rw [ha]; simp

/-- C26: locals and body shorter than the declared size. -/
theorem c26_short {r : R} {b1 b2 rest : Bytes} {size : UInt32} {c : CodeEntry} (h1 : BU32 b1 size)
    (h2 : BFunc b2 c) (hlt : b2.length < size.toNat) (ha : avail r = b1 ++ (b2 ++ rest)) :
    ∃ leftover consumed r', parseCode r = (.err (.EntrySizeMismatch size leftover consumed), r') ∧
      consumed.toNat = b2.length ∧ leftover.toNat = size.toNat - b2.length := by
  obtain ⟨ls, hb, _⟩ := Wadec.BFunc.toBody h2
  have hs := size.toNat_lt
  have e : UInt64.ofNat (size.toNat - (size.toNat - b2.length)) = UInt64.ofNat b2.length := by
    congr 1; omega
  refine ⟨UInt64.ofNat (size.toNat - b2.length), UInt64.ofNat b2.length, ?_⟩
  have hr := Runs.withTake (R := R) (n := size.toNat) (by omega) (codeBody_runs (R := Take R) hb)
  have hf : Fails (R := R) parseCode (b1 ++ (b2 ++ [])) (.EntrySizeMismatch size
      (UInt64.ofNat (size.toNat - b2.length)) (UInt64.ofNat (size.toNat - (size.toNat - b2.length)))) :=
    Fails.bind2 (Runs.mapErr (decodeU32_runs h1)) (Fails.bind2 hr (Fails.ite_pos (by omega) Fails.err))
  obtain ⟨r', h⟩ := hf r rest (by rw [ha]; simp)
  refine ⟨r', ?_, ?_, ?_⟩
  · rw [← e]; exact h
  · rw [UInt64.toNat_ofNat', Nat.mod_eq_of_lt (by omega)]
  · rw [UInt64.toNat_ofNat', Nat.mod_eq_of_lt (by omega)]

/-- C26: conversely, `EntrySizeMismatch` is only reported for such an entry. -/
theorem c26_mismatch {r r' : R} {declared : UInt32} {leftover consumed : UInt64}
    (h : parseCode r = (.err (.EntrySizeMismatch declared leftover consumed), r')) :
    declared.toNat = consumed.toNat + leftover.toNat ∧ 0 < leftover.toNat ∧
    ∃ b1 b2 rest c, avail r = b1 ++ (b2 ++ rest) ∧ BU32 b1 declared ∧ BFunc b2 c ∧
      b2.length = consumed.toNat := by
  simp only [parseCode, Bind.bind, Dec.bind, Dec.mapErr] at h
  rcases hu : decodeU32 r with ⟨res, r1⟩
  rw [hu] at h
  cases res with
  | err e => simp at h
  | panic => simp at h
  | fuel => simp at h
  | ok size =>
    simp only at h
    obtain ⟨b1, ha1, hb1⟩ := decodeU32_sound r size r1 hu
    rcases hw : Dec.withTake size.toNat parseCodeBody r1 with ⟨res, r2⟩
    rw [hw] at h
    cases res with
    | err e =>
      exfalso
      simp only [Prod.mk.injEq, Res.err.injEq] at h
      have : ErrPost (R := R) (Dec.withTake size.toNat parseCodeBody)
          (fun e => ∀ a b c, e ≠ .EntrySizeMismatch a b c) :=
        ErrPost.withTake (ErrPost.bind (ErrPost.mapErr (fun _ _ _ _ => by simp)) fun _ =>
          ErrPost.bind (ErrPost.mapErr (fun _ _ _ _ => by simp)) fun _ => ErrPost.pure)
      exact this _ _ _ hw _ _ _ h.1
    | panic => simp at h
    | fuel => simp at h
    | ok v =>
      obtain ⟨⟨ls, e, d⟩, limit⟩ := v
      obtain ⟨b2, ha2, hb2, hl⟩ := Sound.withTake codeBody_sound r1 _ r2 hw
      simp only at h hb2 hl
      by_cases h0 : limit = 0
      · simp [h0, Pure.pure, Dec.ok] at h
      · simp only [ne_eq, h0, not_false_eq_true, ↓reduceIte, Dec.err, Prod.mk.injEq, Res.err.injEq,
          DecodeCodeError.EntrySizeMismatch.injEq] at h
        obtain ⟨⟨rfl, rfl, rfl⟩, _⟩ := h
        have hs := size.toNat_lt
        rw [UInt64.toNat_ofNat', Nat.mod_eq_of_lt (by omega), UInt64.toNat_ofNat',
          Nat.mod_eq_of_lt (by omega)]
        refine ⟨by omega, by omega, b1, b2, avail r2, _, ?_, hb1, hb2.toFunc, by omega⟩
        rw [adv_avail ha1, adv_avail ha2]

/-- C26: locals and body longer than the declared size: the decoder runs into the end of the
entry.  The error is an unexpected end of file (or, in the situation described in C33, the type
index that stands for it). -/
theorem c26_long {r : R} {b1 b2 rest : Bytes} {size : UInt32} {c : CodeEntry} (h1 : BU32 b1 size)
    (h2 : BFunc b2 c) (hlt : size.toNat < b2.length) (ha : avail r = b1 ++ (b2 ++ rest)) :
    ∃ e r', parseCode r = (.err e, r') ∧
      (ErrInfo.root e = some .unexpectedEof ∨
        (ErrInfo.murky e = true ∧ Dangling (b2.take size.toNat))) := by
  obtain ⟨ls, hb, _⟩ := Wadec.BFunc.toBody h2
  obtain ⟨r1, hu, ha1⟩ := decodeU32_runs h1 r (b2 ++ rest) ha
  have hav1 : avail r1 = b2 ++ rest := by
    have := adv_avail ha1
    rw [ha, List.append_cancel_left_eq] at this
    exact this.symm
  have hat : avail ({ limit := size.toNat, inner := r1 } : Take R) = b2.take size.toNat := by
    simp only [avail]
    rw [hav1, List.take_append_of_le_length (by omega)]
  have hft : fin ({ limit := size.toNat, inner := r1 } : Take R) = .eof := by
    simp only [fin]
    rw [if_pos (by rw [hav1, List.length_append]; omega)]
  obtain ⟨s', hs, hadv⟩ := codeBody_runs hb (Src.ofBytes b2) [] (by rw [avail_ofBytes]; simp)
  have hg := codeBody_g (R := Take R) (S := Src) (L := size.toNat)
    { limit := size.toNat, inner := r1 } (Src.ofBytes b2)
    (by rw [hat, List.length_take]; omega) (by rw [hat, avail_ofBytes]; exact List.take_prefix _ _)
  rcases hp : parseCodeBody ({ limit := size.toNat, inner := r1 } : Take R) with ⟨res, t⟩
  rw [hp] at hg
  cases res with
  | ok v =>
    exfalso
    obtain ⟨bs, s'', _, h4, h5, h6⟩ := hg
    rw [hs] at h4
    simp only [Prod.mk.injEq, Res.ok.injEq] at h4
    obtain ⟨_, rfl⟩ := h4
    have := adv_avail hadv
    rw [adv_avail h6] at this
    have := List.append_cancel_right this
    subst this
    have := congrArg List.length (adv_avail h5)
    rw [hat, List.length_take, List.length_append] at this
    omega
  | panic => exact hg.elim
  | fuel => exact hg.elim
  | err e =>
    refine ⟨e, t.inner, ?_, ?_⟩
    · simp only [parseCode, Bind.bind, Dec.bind, Dec.mapErr, hu, Dec.withTake, hp]
    · rcases hg with ⟨s', h⟩ | ⟨mk, h3, h4, _⟩ | ⟨h, hD, _⟩
      · rw [hs] at h; simp at h
      · left; rw [h4, h3, hft]; rfl
      · rw [hat] at hD; exact .inr ⟨h, hD⟩

/-- C37. -/
theorem c37_elem : Decodes (parseElem : Dec R _ _) BElem :=
  Decodes.of elem_sound fun _ _ => elem_runs

/-- C37: any other bitfield is rejected with its value. -/
theorem c37_bitfield {r : R} {bs rest : Bytes} {n : UInt32} (h : BU32 bs n) (hn : 7 < n.toNat)
    (ha : avail r = bs ++ rest) : ∃ r', parseElem r = (.err (.InvalidBitfield n), r') := by
  refine Fails.bind2 (b2 := []) (Runs.mapErr (decodeU32_runs h)) ?_ r rest (by simpa using ha)
  have ne : ∀ k : UInt32, k.toNat ≤ 7 → n ≠ k := by rintro k hk rfl; omega
  exact Fails.ite_neg (ne 0 (by decide)) (Fails.ite_neg (ne 1 (by decide))
    (Fails.ite_neg (ne 2 (by decide)) (Fails.ite_neg (ne 3 (by decide))
    (Fails.ite_neg (ne 4 (by decide)) (Fails.ite_neg (ne 5 (by decide))
    (Fails.ite_neg (ne 6 (by decide)) (Fails.ite_neg (ne 7 (by decide)) Fails.err)))))))

/-- C38. -/
theorem c38_table : Decodes (decodeTable : Dec R _ _) BTable :=
  Decodes.of table_sound fun _ _ => table_runs
theorem c38_global : Decodes (parseGlobal : Dec R _ _) BGlobal :=
  Decodes.of global_sound fun _ _ => global_runs
theorem c38_data : Decodes (parseData : Dec R _ _) BData :=
  Decodes.of data_sound fun _ _ => data_runs
theorem c38_import : Decodes (parseImport : Dec R _ _) BImport :=
  Decodes.of import_sound fun _ _ => import_runs
theorem c38_export : Decodes (parseExport : Dec R _ _) BExport :=
  Decodes.of export_sound fun _ _ => export_runs

/-- C38: a table without initialiser gets `ref.null` of the heap type of its element type. -/
theorem c38_table_default {r r' : R} {t : Table} {b : UInt8} {rest : Bytes}
    (h : decodeTable r = (.ok t, r')) (ha : avail r = b :: rest) (hb : b ≠ 0x40) :
    t.init = [.RefNull t.type.reftype.ht] := by
  obtain ⟨bs, hbs, h1, _⟩ := (c38_table (R := R)).1 r t r' h
  cases hbs with
  | type _ => rfl
  | init _ _ =>
    rw [ha] at h1
    exact absurd (List.cons.inj h1).1 hb

end

/-! ### Instances -/

/-- `0x00 0x0B`: no locals, empty body -/
theorem emptyFunc : BFunc [0x00, 0x0B] ⟨[], []⟩ :=
  .mk (b1 := [0x00]) (b2 := [0x0B]) (runs := []) (.mk (b := [0x00]) (bs := []) (xs := []) u0 .nil)
    (.mk (bs := []) .nil) (by decide)

/-- C25: runs (2 × i32) (1 × i64), then `end` -/
example : (decodeCodeEntry (Src.ofBytes [0x06, 0x02, 0x02, 0x7F, 0x01, 0x7E, 0x0B])).1 =
    .ok ⟨[.Num .Int32, .Num .Int32, .Num .Int64], []⟩ := by rfl

/-- C25: (2^32 − 1) × i32 and then one more local: the hypotheses of `c25_bound` are met -/
theorem tooManyLocals : ∃ r', parseCode (Src.ofBytes
      [0x0A, 0x02, 0xFF, 0xFF, 0xFF, 0xFF, 0x0F, 0x7F, 0x01, 0x7F, 0x0B]) =
    (.err (.DecodeLocalsVector (.ParseElement 1 (.LocalsCountOutOfBound 4294967295 4294967296))), r') :=
  c25_bound (R := Src) (bsz := [0x0A]) (bn := [0x02]) (b1 := [0xFF, 0xFF, 0xFF, 0xFF, 0x0F, 0x7F])
    (b2 := [0x01]) (rest := [0x7F, 0x0B]) (size := 10) (n := 2) (c := 1)
    (runs := [(4294967295, .Num .Int32)]) (tot := 4294967296)
    ((c07_u32 10 _).2 ⟨1, by decide⟩) ((c07_u32 2 _).2 ⟨1, by decide⟩)
    (.cons (bs := []) (BLocals.mk (b1 := [0xFF, 0xFF, 0xFF, 0xFF, 0x0F]) (b2 := [0x7F])
      ((c07_u32 4294967295 _).2 ⟨5, by decide⟩) .i32) .nil)
    (by decide) ((c07_u32 1 _).2 ⟨1, by decide⟩)
    (by simp only [localsOf, List.flatMap_cons, List.flatMap_nil, List.append_nil,
          List.length_replicate]; decide)
    (by simp only [localsOf, List.flatMap_cons, List.flatMap_nil, List.append_nil,
          List.length_replicate]; decide) (by decide) (by decide) (avail_ofBytes _)

/-- C26: two bytes where four, or one, were announced -/
example : ∃ l c r', parseCode (Src.ofBytes ([0x04] ++ ([0x00, 0x0B] ++ [0x01, 0x01]))) =
    (.err (.EntrySizeMismatch 4 l c), r') ∧ c.toNat = 2 ∧ l.toNat = 2 :=
  c26_short (R := Src) ((c07_u32 4 _).2 ⟨1, by decide⟩) emptyFunc (by decide) (avail_ofBytes _)
example : ∃ e r', parseCode (Src.ofBytes ([0x01] ++ ([0x00, 0x0B] ++ []))) = (.err e, r') ∧
    (ErrInfo.root e = some .unexpectedEof ∨ (ErrInfo.murky e = true ∧ Dangling [0x00])) :=
  c26_long (R := Src) ((c07_u32 1 _).2 ⟨1, by decide⟩) emptyFunc (by decide) (avail_ofBytes _)

/-- C37: bitfield 2, table 1, offset `i32.const 5`, functions 0 and 3 -/
example : BElem [0x02, 0x01, 0x41, 0x05, 0x0B, 0x00, 0x02, 0x00, 0x03]
    ⟨⟨true, .Ht .Func⟩, [[.RefFunc ⟨0⟩], [.RefFunc ⟨3⟩]], .Active ⟨1⟩ [.I32Const 5]⟩ :=
  .active (b0 := [0x02]) (b1 := [0x01]) (b2 := [0x41, 0x05, 0x0B]) (b3 := [0x02, 0x00, 0x03])
    (ys := [⟨0⟩, ⟨3⟩]) ((c07_u32 2 _).2 ⟨1, by decide⟩) ((c07_u32 1 _).2 ⟨1, by decide⟩)
    (.mk (bs := [0x41, 0x05]) (.cons (bs := []) i32Const5 .nil))
    (BList.mk (b := [0x02]) (xs := [(⟨0⟩ : FuncIdx), ⟨3⟩]) ((c07_u32 2 _).2 ⟨1, by decide⟩)
      (BSeq.cons (b := [0x00]) (bs := [0x03]) ((c07_u32 0 [0x00]).2 ⟨1, by decide⟩)
        (BSeq.cons (b := [0x03]) (bs := []) ((c07_u32 3 [0x03]).2 ⟨1, by decide⟩) .nil)))
/-- C37: bitfield 9 -/
example : ∃ r', parseElem (Src.ofBytes [0x09, 0x00]) = (.err (.InvalidBitfield 9), r') :=
  c37_bitfield (bs := [0x09]) (rest := [0x00]) ((c07_u32 9 _).2 ⟨1, by decide⟩) (by decide)
    (avail_ofBytes _)

/-- C38: a table of nullable funcrefs without initialiser, an export of global 2 as "a" -/
example : BTable [0x70, 0x00, 0x03] ⟨⟨⟨true, .Ht .Func⟩, ⟨.I32, 3, none⟩⟩, [.RefNull (.Ht .Func)]⟩ :=
  .type (.mk (b1 := [0x70]) (.abs .func) (.i32Min (b := [0x03]) ((c07_u64 3 _).2 ⟨1, by decide⟩)))
example : (parseExport (Src.ofBytes [0x01, 0x61, 0x03, 0x02])).1 = .ok ⟨⟨[0x61]⟩, .Global ⟨2⟩⟩ := by rfl

end Wadec
