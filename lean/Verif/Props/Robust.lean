import Verif.Props.Sample
import Verif.Proof.ModuleG

/-! C29–C34: panics, termination, fragmentation, failing and truncated inputs.

`R` and `S` range over all lawful readers: every script of chunks, `Interrupted` errors, failures and
ends of file (`Src`), and `take`/`chain` of such readers. -/

namespace Wadec

open LawfulRead Spec

section
variable {R S : Type} [LawfulRead R] [LawfulRead S]

/-- C29, C30: whatever the reader does, `decode_module` returns `Ok` or `Err`: it neither panics nor
runs out of its step budget, which is the number of bytes and events the reader has left. -/
theorem c29_total (r : R) :
    (∃ m r', decodeModule r = (.ok m, r')) ∨ (∃ e r', decodeModule r = (.err e, r')) := by
  have h := module_m r r (List.prefix_refl _)
  generalize decodeModule r = o at h
  cases h with
  | ok => exact .inl ⟨_, _, rfl⟩
  | err => exact .inr ⟨_, _, rfl⟩

theorem c29_no_panic (r : R) : (decodeModule r).1 ≠ .panic := by
  rcases c29_total r with ⟨m, r', h⟩ | ⟨e, r', h⟩ <;> rw [h] <;> simp

theorem c30_terminates (r : R) : (decodeModule r).1 ≠ .fuel := by
  rcases c29_total r with ⟨m, r', h⟩ | ⟨e, r', h⟩ <;> rw [h] <;> simp

/-- C31: two readers that deliver the same bytes and the same end give the same result, whatever
chunks and `Interrupted` errors they use. -/
theorem c31_fragmentation (r : R) (s : S) (ha : avail s = avail r) (hf : fin s = fin r) :
    (decodeModule s).1 = (decodeModule r).1 := by
  have h := module_m r s (by rw [ha]; exact List.prefix_refl _)
  generalize decodeModule r = o at h
  cases h with
  | ok _ h2 => obtain ⟨s', h⟩ := h2 ha hf; rw [h]
  | err h =>
    rcases h with ⟨s', h⟩ | ⟨_, h⟩
    · rw [h]
    · obtain ⟨s', h⟩ := h ha hf; rw [h]

/-- C32: a reader that fails before the end of input never yields a module. -/
theorem c32_fail {r : R} {x : IoError} (hf : fin r = .fail x) (hx : x ≠ .unexpectedEof) :
    ∀ m r', decodeModule r ≠ (.ok m, r') := by
  intro m r' h
  have := (module_sound h).2
  rw [hf] at this
  exact hx this

/-- The error `e` is a consequence of the bytes `bs` alone: every reader that delivers them first,
whatever it does afterwards, gives it. -/
def Forced (bs : Bytes) (e : DecodeModuleError) : Prop :=
  ∀ s : Src, bs <+: avail s → (decodeModule s).1 = .err e

/-- C33: if the reader fails with `x`, then `decode_module` returns an error; and unless that error
is a consequence of the bytes delivered before the failure alone, it contains `x` (`root`), or it is
the one exception (`murky`): a `NegativeTypeIndex(-29 | -28)` of a block type, and then the bytes
delivered end inside that block type's reference type (`Dangling`: `0x63` or `0x64` followed by at
most four bytes of an unfinished heap type). -/
theorem c33_reported {r : R} {x : IoError} (hf : fin r = .fail x) (hx : x ≠ .unexpectedEof) :
    ∃ e r', decodeModule r = (.err e, r') ∧
      (Forced (avail r) e ∨ ErrInfo.root e = some x ∨
        (ErrInfo.murky e = true ∧ Dangling (avail r))) := by
  rcases c29_total r with ⟨m, r', h⟩ | ⟨e, r', h⟩
  · exact absurd h (c32_fail hf hx m r')
  · refine ⟨e, r', h, ?_⟩
    by_cases hb : Blamed (avail r) (fin r) e
    · cases hb with
      | io h => rw [hf] at h; exact .inr (.inl h)
      | murky h hD => exact .inr (.inr ⟨h, hD⟩)
      | custom hc => rw [hf] at hc; cases hc
      | final h => rw [hf] at h; exact absurd h hx
    · refine .inl fun s hp => ?_
      have hm := module_m r s hp
      rw [h] at hm
      cases hm with
      | err h =>
        rcases h with ⟨s', h⟩ | ⟨hb', _⟩
        · rw [h]
        · exact absurd hb' hb

/-- C33, for readers that end: the error is a consequence of the bytes alone, or it says that the
input was too short, or it is one of the checks made at the end of input. -/
theorem c33_eof {r r' : R} {e : DecodeModuleError} (hf : fin r = .eof)
    (h : decodeModule r = (.err e, r')) :
    Forced (avail r) e ∨ ErrInfo.root e = some .unexpectedEof ∨
      (ErrInfo.murky e = true ∧ Dangling (avail r)) ∨
      (∃ size got, e = .SectionSizeMismatch .Custom size got) ∨
      (∃ f, e = .CodeFuncEntriesLenMismatch 0 f) ∨ (∃ d n, e = .DataCountDatasLenMismatch d n) ∨
      e = .DataIndexWithoutDataCount := by
  by_cases hb : Blamed (avail r) (fin r) e
  · cases hb with
    | io h => rw [hf] at h; exact .inr (.inl h)
    | murky h hD => exact .inr (.inr (.inl ⟨h, hD⟩))
    | custom => exact .inr (.inr (.inr (.inl ⟨_, _, rfl⟩)))
    | final _ h =>
      cases e with
      | CodeFuncEntriesLenMismatch c f =>
        cases (h : c = 0)
        exact .inr (.inr (.inr (.inr (.inl ⟨_, rfl⟩))))
      | DataCountDatasLenMismatch d n => exact .inr (.inr (.inr (.inr (.inr (.inl ⟨_, _, rfl⟩)))))
      | DataIndexWithoutDataCount => exact .inr (.inr (.inr (.inr (.inr (.inr rfl)))))
      | _ => exact h.elim
  · refine .inl fun s hp => ?_
    have hm := module_m r s hp
    rw [h] at hm
    cases hm with
    | err h =>
      rcases h with ⟨s', h⟩ | ⟨hb', _⟩
      · rw [h]
      · exact absurd hb' hb

/-- C49: an error that neither reports an I/O error nor is one of the checks made at the end of
input is final: every input that starts with the same bytes is rejected with the same error. -/
theorem c49_stable {r r' : R} {e : DecodeModuleError} (h : decodeModule r = (.err e, r'))
    (hio : ErrInfo.root e = none) (hmk : ErrInfo.murky e = true → ¬ Dangling (avail r))
    (hcs : ∀ size got, e ≠ .SectionSizeMismatch .Custom size got)
    (hcf : ∀ f, e ≠ .CodeFuncEntriesLenMismatch 0 f)
    (hdc : ∀ d n, e ≠ .DataCountDatasLenMismatch d n)
    (hdi : e ≠ .DataIndexWithoutDataCount) :
    ∀ s : S, avail r <+: avail s → (decodeModule s).1 = .err e := by
  intro s hp
  have hm := module_m r s hp
  rw [h] at hm
  cases hm with
  | err h =>
    rcases h with ⟨s', h⟩ | ⟨hb, _⟩
    · rw [h]
    · cases hb with
      | io h => rw [hio] at h; cases h
      | murky h hD => exact absurd hD (hmk h)
      | custom => exact absurd rfl (hcs _ _)
      | final _ h =>
        cases e with
        | CodeFuncEntriesLenMismatch c f =>
          cases (h : c = 0)
          exact absurd rfl (hcf _)
        | DataCountDatasLenMismatch d n => exact absurd rfl (hdc _ _)
        | DataIndexWithoutDataCount => exact absurd rfl hdi
        | _ => exact h.elim

/-- C34: a prefix of an accepted input that is accepted as well ends at a section boundary: it
consists of the preamble and the first few of the recorded sections. -/
theorem c34_boundary {r r' : R} {s s' : S} {m m' : Module} {t : Bytes}
    (h : decodeModule r = (.ok m, r')) (h' : decodeModule s = (.ok m', s'))
    (ht : avail r = avail s ++ t) :
    ∃ parts : List Part, (∀ p ∈ parts, p.Ok) ∧ parts.map Part.header = m.section_headers ∧
      avail r = preamble ++ parts.flatMap Part.bytes ∧
      ∃ k ≤ parts.length, avail s = preamble ++ (parts.take k).flatMap Part.bytes ∧
        m'.section_headers = m.section_headers.take k := by
  obtain ⟨secs, more, hm, rfl, rfl, hw, ha, hb⟩ := c21_trailing h' h ht
  obtain ⟨p1, o1, e1, h1, _⟩ := parts_of hb
  obtain ⟨p2, o2, e2, h2, _⟩ := parts_of hm
  refine ⟨p1 ++ p2, ?_, ?_, ?_, p1.length, by simp, ?_, ?_⟩
  · intro p hp
    rcases List.mem_append.1 hp with hp | hp
    · exact o1 p hp
    · exact o2 p hp
  · simp [assemble, h1, h2]
  · rw [ht, ha, e1, e2]
    simp
  · rw [List.take_left', ← e1, ← ha]
    rfl
  · have := congrArg List.length h1
    simp only [List.length_map] at this
    simp [assemble, this]

theorem _root_.Wadec.Spec.AtSection.append {inp : Bytes} {secs : List Section} {k : SectionKind}
    {size : UInt32} {rest : Bytes} (h : AtSection inp secs k size rest) (t : Bytes) :
    AtSection (inp ++ t) secs k size (rest ++ t) := by
  cases h with
  | mk h1 h2 h3 =>
    have := AtSection.mk (k := k) (rest := rest ++ t) h1 h2 h3
    simpa using this

/-- C34: a prefix of an accepted input that does not end at a section boundary is rejected; the
error says that the input is too short, or, in a custom section, that the section is shorter than
declared, or is the exception named in C33. -/
theorem c34_truncated {r r' : R} {s : S} {m : Module} {t : Bytes}
    (h : decodeModule r = (.ok m, r')) (ht : avail r = avail s ++ t) (hf : fin s = .eof)
    (hb : ¬ ∃ b secs, avail s = preamble ++ b ∧ BSeq BSection b secs) :
    ∃ e s', decodeModule s = (.err e, s') ∧
      (ErrInfo.root e = some .unexpectedEof ∨ (ErrInfo.murky e = true ∧ Dangling (avail s)) ∨
        ∃ size got, e = .SectionSizeMismatch .Custom size got) := by
  rcases c29_total s with ⟨m', s', h'⟩ | ⟨e, s', h'⟩
  · obtain ⟨secs, _, _, _, _, _, ha, hbs⟩ := c21_trailing h' h ht
    exact absurd ⟨_, _, ha, hbs⟩ hb
  · refine ⟨e, s', h', ?_⟩
    have hm := module_m s r ⟨t, ht.symm⟩
    rw [h'] at hm
    cases hm with
    | err hm =>
      rcases hm with ⟨r1, h1⟩ | ⟨hbl, _⟩
      · rw [h] at h1; cases h1
      · cases hbl with
        | io h => rw [hf] at h; exact .inl h
        | murky h hD => exact .inr (.inl ⟨h, hD⟩)
        | custom => exact .inr (.inr ⟨_, _, rfl⟩)
        | final _ hfe =>
          exfalso
          have hend : ∀ secs, AtEnd (avail s) secs → False := by
            intro secs hat
            generalize hav : avail s = inp at hat
            cases hat with
            | mk hbs _ => exact hb ⟨_, _, hav, hbs⟩
          cases e with
          | CodeFuncEntriesLenMismatch c f =>
            rcases c24_mismatch.1 ⟨s', h'⟩ with ⟨secs, size, content, rest, cs, hat, h1⟩ | ⟨secs, hat, _⟩
            · have hat' := hat.append t
              rw [← ht, List.append_assoc] at hat'
              obtain ⟨r1, h1⟩ := c24_mismatch.2 (.inl ⟨secs, size, content, rest ++ t, cs, hat', h1⟩)
              rw [h] at h1
              cases h1
            · exact hend _ hat
          | DataCountDatasLenMismatch d n =>
            obtain ⟨secs, hat, _⟩ := c27_missing.1 ⟨s', h'⟩
            exact hend _ hat
          | DataIndexWithoutDataCount =>
            obtain ⟨secs, hat, _⟩ := c28_reject.1 ⟨s', h'⟩
            exact hend _ hat
          | _ => exact hfe

end

/-! ### Instances -/

/-- The sample module in three-byte chunks with `Interrupted` errors in between. -/
def chunked (x : List Ev) : Src :=
  { evs := [.data preamble, .fail .interrupted, .data secCustom, .data secType, .fail .interrupted,
      .fail .interrupted, .data [0x03, 0x02], .data [0x01, 0x00], .data secGlobal, .data secCustom,
      .data secDataCount, .data secCode, .data secData, .data secCustom] ++ x }

/-- C31: fragmented and interrupted, the sample is accepted with the same result. -/
example : (decodeModule (chunked [])).1 = .ok (assemble secsA) := by
  obtain ⟨r', h⟩ := modA
  rw [c31_fragmentation (Src.ofBytes (preamble ++ bytesA)) (chunked []) (by decide) (by decide), h]

/-- C32, C33: the same bytes followed by a failure, exactly at the end of the last (custom)
section. -/
example : ∀ m r', decodeModule (chunked [.fail (.other 5)]) ≠ (.ok m, r') :=
  c32_fail (x := .other 5) (by decide) (by decide)

/-- C33: and the error is that failure. -/
example : ∃ e r', decodeModule (⟨[.data preamble, .fail (.other 5)], []⟩ : Src) = (.err e, r') ∧
    ErrInfo.root e = some (.other 5) :=
  ⟨_, _, rfl, rfl⟩

/-- C33: the exception happens: inside the type of a block the failure is lost. -/
example : ∃ e r', decodeExpr (⟨[.data [0x02, 0x64], .fail (.other 5)], []⟩ : Src) = (.err e, r') ∧
    ErrInfo.root e = none ∧ ErrInfo.murky e = true := by
  refine ⟨_, _, rfl, ?_, ?_⟩ <;> rfl

/-- C49: a section out of order is reported whatever follows it. -/
example (s : Src) (h : preamble ++ [0x03, 0x01, 0x00, 0x01, 0x01, 0x00] <+: avail s) :
    (decodeModule s).1 = .err (.SectionOutOfOrder .«Type» .Function) := by
  have hd : decodeModule (Src.ofBytes (preamble ++ [0x03, 0x01, 0x00, 0x01, 0x01, 0x00])) =
      (.err (.SectionOutOfOrder .«Type» .Function), _) := rfl
  refine c49_stable hd rfl (fun h => by cases h) (fun _ _ => by simp) (fun _ => by simp)
    (fun _ _ => by simp) (by simp) s ?_
  rwa [avail_ofBytes]

/-- C34: the sample without its last byte. -/
example : ∃ e s', decodeModule (Src.ofBytes (preamble ++ bytesA.dropLast)) = (.err e, s') ∧
    (ErrInfo.root e = some .unexpectedEof ∨
      (ErrInfo.murky e = true ∧
        Dangling (avail (Src.ofBytes (preamble ++ bytesA.dropLast)))) ∨
      ∃ size got, e = .SectionSizeMismatch .Custom size got) := by
  obtain ⟨r', h⟩ := modA
  refine c34_truncated h (t := [0x03]) (by rw [avail_ofBytes, avail_ofBytes]; decide)
    (fin_ofBytes _) ?_
  rintro ⟨b, secs, e, hb⟩
  rw [avail_ofBytes] at e
  have := List.append_cancel_left e
  subst this
  obtain ⟨rest, e1, e2⟩ := sections_prefix (t := [0x03]) hb
    (ss' := secsA) (by have := bSecsA; rwa [show bytesA = bytesA.dropLast ++ [0x03] by decide] at this)
  generalize hb : [(0x03 : UInt8)] = bs at e2
  cases e2 with
  | nil => cases hb
  | cons h _ =>
    cases h with
    | @mk b1 b2 size s h1 _ _ =>
      simp only [List.cons_append, List.cons.injEq, List.nil_eq, List.append_eq_nil_iff] at hb
      have := hb.2.1
      obtain ⟨rfl, _⟩ := this
      cases h1

end Wadec
