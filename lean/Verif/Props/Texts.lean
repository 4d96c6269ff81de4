import Verif.Proof.Texts
import Verif.Proof.FaultModule
import Verif.Props.Fault
import Verif.Props.Instructions

/-! C58: error messages about unexpected bytes tell the truth.

`shows e` (Spec/Texts.lean) are the hexadecimal numbers in the last message of the error `e`, read back
from its text.  `Truthful d bad p q`: in a message of the form "expected …; got …" the first numbers
are exactly the bytes that `d` accepts at that place, and the last number is the byte it found. -/

namespace Wadec

open LawfulRead Spec

variable {R : Type} [LawfulRead R]

set_option maxRecDepth 100000 in
/-- C58: `{:#04X}` of a byte has four characters, `0x` and two digits, which tell the byte. -/
theorem c58_byte (c : UInt8) : (hex04 c.toNat).length = 4 ∧ hexNumbers (hex04 c.toNat).toList = [c.toNat] :=
  ⟨forall_u8 (p := fun c => (hex04 c.toNat).length = 4) (by decide +kernel) c, hexNumbers_hex04 _⟩

theorem truthful {ε α : Type} [ErrText ε] {d : Dec R ε α} {bad : UInt8 → ε} {p q : List UInt8 → Prop}
    {F : End → Bytes → ε → Prop} (hF : Faults d F) (listed : List UInt8)
    (h1 : ∀ c, shows (bad c) = listed.map UInt8.toNat ++ [c.toNat])
    (h2 : ∀ x b c t, p b → q t → (F x (b ++ c :: t) (bad c) ↔ c ∉ listed)) : Truthful d bad p q :=
  ⟨listed, h1, fun r b c t hp hq h => by rw [hF r (bad c), h]; exact h2 _ b c t hp hq⟩

/-- Nothing precedes. -/
theorem truthful₀ {ε α : Type} [ErrText ε] {d : Dec R ε α} {bad : UInt8 → ε}
    {F : End → Bytes → ε → Prop} (hF : Faults d F) (listed : List UInt8)
    (h1 : ∀ c, shows (bad c) = listed.map UInt8.toNat ++ [c.toNat])
    (h2 : ∀ x c t, (F x (c :: t) (bad c) ↔ c ∉ listed)) : Truthful d bad (· = []) (fun _ => True) :=
  truthful hF listed h1 fun x b c t hp _ => by subst hp; exact h2 x c t

/-- C58: the flag byte of limits. -/
theorem c58_limits : Truthful (parseLimits : Dec R _ _) .UnexpectedFlagByte (· = []) (fun _ => True) :=
  truthful₀ limits_faults [0x00, 0x01, 0x04, 0x05]
    (hexNumbers_msg "unexpected Limits flag byte: expected 0x00, 0x01, 0x04 or 0x05; got " (by decide +kernel)
      <| UInt8.toNat ·)
    (fun _ _ _ => ⟨fun h => by cases h; assumption, .flag⟩)

/-- C58: the marker byte of a composite type. -/
theorem c58_compType : Truthful (CompType.decode : Dec R _ _) .InvalidMarkerByte (· = []) (fun _ => True) :=
  truthful₀ CompType.faults [0x5E, 0x5F, 0x60]
    (hexNumbers_msg "unexpected CompType marker byte: expected 0x5E, 0x5F or 0x60; got " (by decide +kernel)
      <| UInt8.toNat ·)
    (fun _ _ _ => ⟨fun h => by cases h; assumption, .marker⟩)

/-- C58: the marker byte of a tag type. -/
theorem c58_tagType : Truthful (TagType.decode : Dec R _ _) .InvalidMarkerByte (· = []) (fun _ => True) :=
  truthful₀ TagType.faults [0x00]
    (hexNumbers_msg ("unexpected TagType marker byte: expected " ++ hex04 0x00 ++ "; got ") (by decide +kernel)
      <| UInt8.toNat ·)
    (fun _ _ _ => ⟨fun h => by cases h; simpa, fun h => .marker (by simpa using h)⟩)

/-- C58: the marker byte of an import's type. -/
theorem c58_externType : Truthful (ExternType.decode : Dec R _ _) .InvalidMarkerByte (· = []) (fun _ => True) :=
  truthful₀ ExternType.faults [0x00, 0x01, 0x02, 0x03, 0x04]
    (hexNumbers_msg "unexpected ExternType marker byte: expected 0x00, 0x01, 0x02, 0x03 or 0x04; got "
      (by decide +kernel) <| UInt8.toNat ·)
    (fun _ _ _ => ⟨fun h => by cases h; assumption, .marker⟩)

/-- C58: the marker byte of a catch clause. -/
theorem c58_catch : Truthful (Catch.decode : Dec R _ _) .InvalidMarkerByte (· = []) (fun _ => True) :=
  truthful₀ Catch.faults [0x00, 0x01, 0x02, 0x03]
    (hexNumbers_msg "invalid marker byte: expected 0x00, 0x01, 0x02 or 0x03; got " (by decide +kernel)
      <| UInt8.toNat ·)
    (fun _ _ _ => ⟨fun h => by cases h; assumption, .marker⟩)

/-- C58: the kind byte of an element segment. -/
theorem c58_elemKind : Truthful (parseElemKind : Dec R _ _) .InvalidElemKind (· = []) (fun _ => True) :=
  truthful₀ elemKind_faults [0x00]
    (hexNumbers_msg "expected byte 0x00; got " (by decide +kernel) <| UInt8.toNat ·)
    (fun _ _ _ => ⟨fun h => by cases h; simpa, fun h => .kind (by simpa using h)⟩)

/-- C58: the byte after 0x40 in a table. -/
theorem c58_table : Truthful (decodeTable : Dec R _ _) .UnexpectedMarkerByte (· = [0x40]) (fun _ => True) :=
  truthful table_faults [0x00]
    (hexNumbers_msg "unexpected marker byte: expected 0x00; got " (by decide +kernel) <| UInt8.toNat ·)
    (fun x b c t hp _ => by
      subst hp
      exact ⟨fun h => by cases h; simpa, fun h => .marker (by simpa using h)⟩)

theorem not_mut_iff {c : UInt8} : (∀ v, ¬ BMut [c] v) ↔ c ∉ [0x00, 0x01] := by
  constructor
  · intro h hm
    simp only [List.mem_cons, List.not_mem_nil, or_false] at hm
    rcases hm with rfl | rfl
    · exact h _ .const
    · exact h _ .var
  · intro h v hv
    cases hv <;> simp at h

/-- C58: the mutability of a global, after its type. -/
theorem c58_globalType : Truthful (GlobalType.decode : Dec R _ _) (.InvalidMutability ⟨·⟩)
    (∃ v, BValType · v) (fun _ => True) :=
  truthful GlobalType.faults [0x00, 0x01]
    (hexNumbers_msg ("invalid Mutability marker byte - expected one of " ++
      markersFormatted Mut.debug Mut.markers ++ "; got ") (by decide +kernel) <| UInt8.toNat ·)
    (fun x b c t hp _ => by
      obtain ⟨v, hv⟩ := hp
      rw [← not_mut_iff]
      refine ⟨fun h => ?_, .mut hv⟩
      generalize b ++ c :: t = bs at h
      cases h
      assumption)

/-- C58: the mutability of a field, after its type. -/
theorem c58_fieldType : Truthful (decodeFieldType : Dec R _ _) (.DecodeMutability ⟨·⟩)
    (∃ v, BStorageType · v) (fun _ => True) :=
  truthful fieldType_faults [0x00, 0x01]
    (hexNumbers_msg ("invalid Mutability marker byte - expected one of " ++
      markersFormatted Mut.debug Mut.markers ++ "; got ") (by decide +kernel) <| UInt8.toNat ·)
    (fun x b c t hp _ => by
      obtain ⟨v, hv⟩ := hp
      rw [← not_mut_iff]
      refine ⟨fun h => ?_, .mut hv⟩
      generalize b ++ c :: t = bs at h
      cases h
      assumption)

/-- C58: the kind byte of an export, between its name and its index. -/
theorem c58_export : Truthful (parseExport : Dec R _ _) (.InvalidDescriptorMarkerByte ⟨·⟩)
    (∃ s, BName · s) (∃ (b : Bytes) (i : UInt32) (t : Bytes), BU32 b i ∧ · = b ++ t) :=
  truthful export_faults [0x00, 0x01, 0x02, 0x03, 0x04]
    (hexNumbers_msg ("invalid ExportDesc marker byte: expected 0x00 (func), 0x01 (table), 0x02 (mem), " ++
      "0x03 (global), 0x04 (tag); got ") (by decide +kernel) <| UInt8.toNat ·)
    (fun x b c t hp hq => by
      obtain ⟨s, hs⟩ := hp
      obtain ⟨b', i, t', hi, rfl⟩ := hq
      refine ⟨fun h => ?_, .kind hs hi⟩
      generalize b ++ c :: (b' ++ t') = bs at h
      cases h
      assumption)

theorem not_sectionId_iff (c : UInt8) :
    (∀ k, sectionId k ≠ c) ↔ c ∉ [0, 1, 2, 3, 4, 5, 6, 7, 8, 9, 10, 11, 12, 13] := by
  constructor
  · intro h hm
    simp only [List.mem_cons, List.not_mem_nil, or_false] at hm
    rcases hm with rfl | rfl | rfl | rfl | rfl | rfl | rfl | rfl | rfl | rfl | rfl | rfl | rfl | rfl
    · exact h .Custom rfl
    · exact h .Type rfl
    · exact h .Import rfl
    · exact h .Function rfl
    · exact h .Table rfl
    · exact h .Memory rfl
    · exact h .Global rfl
    · exact h .Export rfl
    · exact h .Start rfl
    · exact h .Element rfl
    · exact h .Code rfl
    · exact h .Data rfl
    · exact h .DataCount rfl
    · exact h .Tag rfl
  · rintro h k rfl
    revert h
    cases k <;> decide

/-- C58: the id of a section. -/
theorem c58_section : Truthful (decodeSectionHeader : Dec R _ _) (.InvalidSectionId ⟨·⟩) (· = []) (fun _ => True) := by
  obtain ⟨l, hl⟩ : ∃ l : List UInt8, l = SectionKind.markers.map Prod.fst := ⟨_, rfl⟩
  have hmem : ∀ c, c ∉ l ↔ c ∉ [0, 1, 2, 3, 4, 5, 6, 7, 8, 9, 10, 11, 12, 13] := by
    subst hl
    apply forall_u8
    decide +kernel
  exact truthful₀ header_faults l
    (hexNumbers_msg ("invalid section ID: expected one of " ++
      markersFormatted SectionKind.debug SectionKind.markers ++ "; got ") (by subst hl; decide +kernel)
      <| UInt8.toNat ·)
    (fun _ c _ => by
      rw [hmem, ← not_sectionId_iff]
      exact ⟨fun h => by cases h; assumption, .id⟩)

/-- C58: the byte with the nullability of `br_on_cast` and `br_on_cast_fail`. -/
theorem c58_castop : Truthful (decodeCastop : Dec R _ _) .InvalidCastNullabilityMarker (· = []) (fun _ => True) := by
  refine ⟨[0x00, 0x01, 0x02, 0x03],
    (hexNumbers_msg "invalid cast operation marker byte: expected 0x00, 0x01, 0x02 or 0x03; got "
      (by decide +kernel) <| UInt8.toNat ·), fun r b c t hp _ h => ?_⟩
  subst hp
  rw [List.nil_append] at h
  constructor
  · rintro ⟨r', hr⟩
    rcases castop_errs r _ r' hr with ⟨_, he⟩ | ⟨m, t', _, hm, he⟩
    · cases he
    · cases he
      intro hc
      simp only [List.mem_cons, List.not_mem_nil, or_false] at hc
      rcases hc with rfl | rfl | rfl | rfl
      · exact hm _ .nn
      · exact hm _ .yn
      · exact hm _ .ny
      · exact hm _ .yy
  · intro hc
    exact castop_failsIn (fun v hv => by cases hv <;> simp at hc) r h rfl

/-- The markers of abstract heap types. -/
def absMarkers : List UInt8 := [0x69, 0x6A, 0x6B, 0x6C, 0x6D, 0x6E, 0x6F, 0x70, 0x71, 0x72, 0x73, 0x74]

theorem not_abs_iff (c : UInt8) : (∀ t, ¬ BAbsHeapType [c] t) ↔ c ∉ absMarkers := by
  rw [← absNone_iff]
  revert c
  apply forall_u8
  decide +kernel

theorem abs_shows (c : UInt8) : shows (InvalidAbsHeapTypeMarkerError.mk c) =
    absMarkers.map UInt8.toNat ++ [c.toNat] :=
  hexNumbers_msg ("invalid AbsHeapType marker byte - expected one of " ++
      markersFormatted AbsHeapType.debug AbsHeapType.markers ++ "; got ") (by decide +kernel) _

/-- C58: abstract heap types. -/
theorem c58_absHeapType : Truthful (AbsHeapType.decode : Dec R _ _) (.InvalidMarkerByte ⟨·⟩) (· = [])
    (fun _ => True) := by
  refine ⟨absMarkers, abs_shows, fun r b c t hp _ h => ?_⟩
  subst hp
  rw [← not_abs_iff, ← absNone_iff]
  obtain ⟨r', hr, _⟩ := (Runs.readByte : Runs (R := R) _ _ _) r t h
  have hd : AbsHeapType.decode r = (match fromMarker AbsHeapType.markers c with
      | some t => (.ok t, r')
      | none => (.err (.InvalidMarkerByte ⟨c⟩), r') : Res _ _ × R) := by
    simp only [AbsHeapType.decode, bind, Dec.bind, Dec.mapErr, hr]
    cases fromMarker AbsHeapType.markers c <;> rfl
  rw [hd]
  cases fromMarker AbsHeapType.markers c with
  | some v => exact ⟨fun ⟨_, h⟩ => (by cases h), fun h => (by cases h)⟩
  | none => exact ⟨fun _ => rfl, fun _ => ⟨r', rfl⟩⟩

/-- C58: the message about the first byte of a reference type lists the abbreviations of the grammar -
the abstract heap types - and not the bytes 0x63 and 0x64, which are accepted as well. -/
theorem c58_refType : ∃ listed : List UInt8,
    (∀ c, shows (DecodeRefTypeError.InvalidMarkerByte (.InvalidMarkerByte ⟨c⟩)) =
      listed.map UInt8.toNat ++ [c.toNat]) ∧
    ∀ (r : R) c t, avail r = c :: t →
      ((∃ r', RefType.decode r = (.err (.InvalidMarkerByte (.InvalidMarkerByte ⟨c⟩)), r')) ↔
        c ∉ listed ∧ c ∉ [0x63, 0x64]) := by
  refine ⟨absMarkers, abs_shows, fun r c t h => ?_⟩
  rw [RefType.faults r, h, ← not_abs_iff]
  refine ⟨fun h => ?_, fun ⟨h1, h2⟩ => .marker h2 h1⟩
  cases h with
  | marker h1 h2 => exact ⟨h2, h1⟩

/-- C58: unassigned opcodes. -/
theorem c58_opcode {c : Ctx} {p t : Bytes} {m : UInt8} {r : R} (hp : Within .expr c p)
    (h : avail r = p ++ m :: t) (hm : UnassignedByte m) :
    ∃ e r', decodeExpr r = (.err e, r') ∧ shows e = [m.toNat] := by
  obtain ⟨r', hr⟩ := (expr_faults r _).2 (h ▸ FExpr.op (x := fin r) hp (FOp.unknown (b := t) hm))
  exact ⟨_, r', hr, hexNumbers_msg (l := []) "unexpected opcode: " (by decide +kernel) _⟩

/-- C58: unassigned opcodes after the prefix bytes 0xFB, 0xFC and 0xFD. -/
theorem c58_sub_opcode {c : Ctx} {p b t : Bytes} {n : UInt32} {r : R} (hp : Within .expr c p) (hn : BU32 b n) :
    (avail r = p ++ 0xFB :: (b ++ t) → Unassigned (.fb n.toNat) →
      ∃ e r', decodeExpr r = (.err e, r') ∧ shows e = [0xFB, n.toNat]) ∧
    (avail r = p ++ 0xFC :: (b ++ t) → Unassigned (.fc n.toNat) →
      ∃ e r', decodeExpr r = (.err e, r') ∧ shows e = [0xFC, n.toNat]) ∧
    (avail r = p ++ 0xFD :: (b ++ t) → Unassigned (.fd n.toNat) →
      ∃ e r', decodeExpr r = (.err e, r') ∧ shows e = [n.toNat]) := by
  refine ⟨fun h hu => ?_, fun h hu => ?_, fun h hu => ?_⟩
  · obtain ⟨r', hr⟩ := (expr_faults r _).2 (h ▸ FExpr.op (x := fin r) hp (FOp.fbUnknown (t := t) hn hu))
    exact ⟨_, r', hr, hexNumbers_msg (l := [0xFB]) "unexpected opcode after 0xFB marker byte: " (by decide +kernel) _⟩
  · obtain ⟨r', hr⟩ := (expr_faults r _).2 (h ▸ FExpr.op (x := fin r) hp (FOp.fcUnknown (t := t) hn hu))
    exact ⟨_, r', hr, hexNumbers_msg (l := [0xFC]) "unexpected opcode after 0xFC marker byte: " (by decide +kernel) _⟩
  · obtain ⟨r', hr⟩ := (expr_faults r _).2 (h ▸ FExpr.op (x := fin r) hp (FOp.fdUnknown (t := t) hn hu))
    exact ⟨_, r', hr, hexNumbers_msg (l := []) "unexpected Vector opcode: " (by decide +kernel) _⟩

/-- C58: the message about a wrong preamble shows the right one and then the eight bytes found. -/
theorem c58_preamble {r : R} {b t : Bytes} (h : avail r = b ++ t) (hb : b.length = 8) (hn : b ≠ preamble) :
    ∃ e r', decodeModule r = (.err e, r') ∧ shows e = preamble.map UInt8.toNat ++ b.map UInt8.toNat := by
  obtain ⟨r', hr⟩ := (module_faults r _).2 (h ▸ FModule.preamble (x := fin r) (t := t) hb hn)
  refine ⟨_, r', hr, ?_⟩
  show hexNumbers ("unexpected preamble: expected " ++ hexArray EXPECTED_PREAMBLE ++ "; got " ++ hexArray b).toList = _
  have h1 : ("unexpected preamble: expected " ++ hexArray EXPECTED_PREAMBLE ++ "; got ").toList =
      ("unexpected preamble: expected " ++ hexArray EXPECTED_PREAMBLE ++ "; got ").toList.dropLast ++ [' '] := by
    decide +kernel
  have h2 : hexNumbers ("unexpected preamble: expected " ++ hexArray EXPECTED_PREAMBLE ++
      "; got ").toList.dropLast = preamble.map UInt8.toNat := by decide +kernel
  rw [String.toList_append, h1, List.append_assoc, List.singleton_append, hexNumbers_sep sep_space, h2,
    hexNumbers_array]

/-! ### Examples -/

/-- A flag byte 2: the message is "unexpected Limits flag byte: expected 0x00, 0x01, 0x04 or 0x05;
got 0x02". -/
example : ∃ e r', parseLimits (Src.ofBytes [0x02, 0x01]) = (.err e, r') ∧ shows e = [0, 1, 4, 5, 2] :=
  ⟨.UnexpectedFlagByte 2, _, rfl, by decide +kernel⟩

/-- The global type 7F 02 (mutability 2). -/
example : ∃ e r', GlobalType.decode (Src.ofBytes [0x7F, 0x02]) = (.err e, r') ∧ shows e = [0, 1, 2] :=
  ⟨.InvalidMutability ⟨2⟩, _, rfl, by decide +kernel⟩
example : ∃ v, BValType [0x7F] v := ⟨_, .i32⟩

/-- Opcode 6, in a block. -/
example : ∃ e r', decodeExpr (Src.ofBytes [0x02, 0x40, 0x06]) = (.err e, r') ∧ shows e = [6] :=
  c58_opcode (c := .block) (m := 0x06) (p := [0x02, 0x40]) (t := [])
    (.enter (pre := []) (bs := []) .nil (.block .empty) (.here .nil)) (by rw [avail_ofBytes]; rfl)
    (unassignedByte_of_mem (by decide))

/-- Opcode FC 18. -/
example : ∃ e r', decodeExpr (Src.ofBytes [0xFC, 0x12, 0x0B]) = (.err e, r') ∧ shows e = [0xFC, 18] :=
  (c58_sub_opcode (b := [0x12]) (n := 18) (t := [0x0B]) (.here (bs := []) .nil)
    ((c07_u32 18 [0x12]).2 ⟨1, by decide⟩)).2.1 (by rw [avail_ofBytes]; rfl) (unassigned_fc (by decide))

/-- A preamble of version 2. -/
example : ∃ e r', decodeModule (Src.ofBytes [0x00, 0x61, 0x73, 0x6D, 0x02, 0x00, 0x00, 0x00]) = (.err e, r') ∧
    shows e = [0, 0x61, 0x73, 0x6D, 1, 0, 0, 0] ++ [0, 0x61, 0x73, 0x6D, 2, 0, 0, 0] :=
  c58_preamble (t := []) (b := [0x00, 0x61, 0x73, 0x6D, 0x02, 0x00, 0x00, 0x00]) (by rw [avail_ofBytes]; rfl) rfl (by decide)

end Wadec
