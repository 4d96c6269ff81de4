import Verif.Props.Sample
import Verif.Props.Robust
import Verif.Props.RoundTrip
import Verif.Props.Resources
import Verif.Props.Position
import Verif.Props.Numbers
import Verif.Props.Markers
import Verif.Props.Causes
import Verif.Props.Equality
import Verif.Props.Unambiguous
import Verif.Props.LastRead
import Verif.Props.Source

/-! Theorems with hypotheses, applied to concrete cases that meet them (those that have no such case beside
them). -/

namespace Wadec

open LawfulRead Spec

/-! ### The sample module of Props/Sample.lean -/

/-- C19 -/
example : [SectionKind.Type, .Function, .Global, .DataCount, .Code, .Data].Sublist sectionOrder :=
  (c19_order modA.choose_spec).1

/-- C20: its 71 bytes are the preamble and nine sections. -/
example : ∃ parts : List Part, parts.length = 9 ∧ (∀ p ∈ parts, p.Ok) ∧
    preamble ++ bytesA = preamble ++ parts.flatMap Part.bytes := by
  obtain ⟨parts, h1, h2, h3⟩ := c20_parts modA.choose_spec
  rw [avail_ofBytes] at h3
  exact ⟨parts, by rw [← List.length_map (f := Part.header), h2]; rfl, h1, h3⟩

/-- C20: the sizes in its headers, with one byte for each size field, add up. -/
example : ∃ fields : List Bytes,
    Each (fun f hd => BU32 f hd.size) fields (assemble secsA).section_headers ∧ (preamble ++ bytesA).length =
      8 + (List.zipWith (fun f hd => 1 + f.length + hd.size.toNat) fields (assemble secsA).section_headers).sum := by
  have := c20_length modA.choose_spec
  rwa [avail_ofBytes] at this

/-- C21: the sample, and the sample without its last custom section. -/
theorem modShort : ∃ r', decodeModule (Src.ofBytes (preamble ++ bytesA.dropLast.dropLast.dropLast.dropLast.dropLast.dropLast.dropLast)) =
    (.ok (assemble secsA.dropLast), r') := by
  refine (c18_bytes _ _).2 (.mk (bs := _) (secs := secsA.dropLast) ?_ ?_)
  · exact .cons bCustom (.cons bType (.cons bFunction (.cons bGlobal (.cons bCustom (.cons bDataCount
      (.cons bCode (seq1 bData)))))))
  · exact ⟨by decide, by decide, fun n h => by cases h; rfl, fun _ h => by cases h⟩

/-- C21 -/
example : ∃ secs more, BSeq BSection secCustom more ∧ assemble secsA.dropLast = assemble secs ∧
    assemble secsA = assemble (secs ++ more) := by
  obtain ⟨secs, more, h1, h2, h3, _⟩ := c21_trailing modShort.choose_spec modA.choose_spec (t := secCustom)
    (by rw [avail_ofBytes, avail_ofBytes]; rfl)
  exact ⟨secs, more, h1, h2, h3⟩

/-- C34: it is the sample cut at a section boundary. -/
example : ∃ k, (assemble secsA.dropLast).section_headers = (assemble secsA).section_headers.take k := by
  obtain ⟨_, _, _, _, k, _, _, h⟩ := c34_boundary modA.choose_spec modShort.choose_spec (t := secCustom)
    (by rw [avail_ofBytes, avail_ofBytes]; rfl)
  exact ⟨k, h⟩

/-- C22: replacing all custom sections of the sample by one. -/
example : ∃ m s', decodeModule (Src.ofBytes (preamble ++ (secType ++ (secFunction ++ (secGlobal ++ (secDataCount ++
    (secCode ++ (secData ++ secCustom)))))))) = (.ok m, s') ∧ m.funcs = (assemble secsA).funcs ∧
    m.custom_sections = [customA] := by
  have h2 : BSeq BSection (secType ++ (secFunction ++ (secGlobal ++ (secDataCount ++
      (secCode ++ (secData ++ secCustom)))))) _ :=
    .cons bType (.cons bFunction (.cons bGlobal (.cons bDataCount (.cons bCode (.cons bData (seq1 bCustom))))))
  obtain ⟨s', h⟩ := c22_custom bSecsA h2 rfl (avail_ofBytes _) (avail_ofBytes _) (fin_ofBytes _) modA.choose_spec
  exact ⟨_, s', h, rfl, rfl⟩

/-- C23: the three custom sections of the sample. -/
example : ∃ parts : List Part, Each (fun p c => ∃ b, BName b c.name ∧ p.contents = b ++ c.contents)
    (parts.filter (fun p => p.header.kind = .Custom)) [customA, customA, customA] := by
  obtain ⟨parts, _, _, _, h⟩ := c23_custom modA.choose_spec
  exact ⟨parts, h⟩

/-- C24, C25: its function. -/
example : ∃ secs : List (UInt32 × Section), (typeIdxsOf (secs.map Prod.snd))[0]? = some ⟨0⟩ ∧
    (codesOf (secs.map Prod.snd))[0]? = some ⟨[.Num .Int32, .Num .Int32], [.Block .Empty [dataDrop]]⟩ := by
  obtain ⟨_, secs, _, _, _, _, h⟩ := c24_functions modA.choose_spec
  exact ⟨secs, h 0 ⟨⟨0⟩, [.Num .Int32, .Num .Int32], [.Block .Empty [dataDrop]]⟩ rfl⟩

/-- C25, C43 -/
example : ∀ f ∈ (assemble secsA).funcs, f.locals.length < 2 ^ 32 := c25_module modA.choose_spec

/-- C27 -/
example : (assemble secsA).datas.length = (1 : UInt32).toNat := c27_count modA.choose_spec 1 rfl

/-- C28 -/
example : (assemble secsA).data_count ≠ none :=
  c28_required modA.choose_spec ⟨_, List.mem_singleton.2 rfl, _, List.mem_singleton.2 rfl,
    .block (List.mem_singleton.2 rfl) .dataDrop⟩

/-- C39 -/
example : (preamble ++ bytesA).take 8 = [0x00, 0x61, 0x73, 0x6D, 0x01, 0x00, 0x00, 0x00] := by
  have := c39_accepted modA.choose_spec
  rwa [avail_ofBytes] at this

/-- C36: the sample can be written down, and read back. -/
example : ∃ s' : Src, decodeModule (Src.ofBytes (encModule (assemble secsA))) = (.ok { assemble secsA with
    parsed_section_kinds := nonCustom (sectionsOf (assemble secsA)),
    section_headers := headersOf (assemble secsA) }, s') :=
  c36_reencode modA.choose_spec (by decide +kernel) (avail_ofBytes _) (fin_ofBytes _)

/-- C43: 48 nodes, 71 bytes -/
example : 48 ≤ 2 * 71 := c43_linear modA.choose_spec

/-- C45: nesting depth 1 -/
example : 3 * 1 ≤ 71 := c45_bounded modA.choose_spec

/-- C54: all its bytes have been taken. -/
example : ∃ s', Took (Src.ofBytes (preamble ++ bytesA)) s' (preamble ++ bytesA) := by
  have := c54_ok modA.choose_spec
  rw [avail_ofBytes] at this
  exact ⟨_, this⟩

/-! ### Errors -/

theorem length_locals1 (n : UInt32) (t : ValType) : (localsOf [(n, t)]).length = n.toNat := by simp [localsOf]

/-- C25: 2^32 - 1 locals and then one more -/
example : ∃ r', parseCode (Src.ofBytes ([0x0A] ++ ([0x02] ++ [0xFF, 0xFF, 0xFF, 0xFF, 0x0F, 0x7F] ++ [0x01]) ++
    [0x7F, 0x0B])) = (.err (.DecodeLocalsVector (.ParseElement 1 (.LocalsCountOutOfBound 4294967295 4294967296))), r') :=
  c25_bound (size := 10) (n := 2) (c := 1) (runs := [(4294967295, .Num .Int32)]) (tot := 4294967296)
    ((c07_u32 10 _).2 ⟨1, by decide⟩) ((c07_u32 2 _).2 ⟨1, by decide⟩)
    (.cons (b := [0xFF, 0xFF, 0xFF, 0xFF, 0x0F, 0x7F]) (bs := [])
      (.mk (b1 := [0xFF, 0xFF, 0xFF, 0xFF, 0x0F]) ((c07_u32 4294967295 _).2 ⟨5, by decide⟩) .i32) .nil)
    (by decide) ((c07_u32 1 _).2 ⟨1, by decide⟩) (by rw [length_locals1]; decide) (by rw [length_locals1]; rfl) (by decide) (by decide)
    (avail_ofBytes _)

/-- What a decoder reports, checked by running it. -/
def reports {ε α : Type} [DecidableEq ε] (d : Dec Src ε α) (bs : Bytes) (e : ε) : Bool :=
  match (d (Src.ofBytes bs)).1 with
  | .err x => decide (x = e)
  | _ => false

theorem of_reports {ε α : Type} [DecidableEq ε] {d : Dec Src ε α} {bs : Bytes} {e : ε} (h : reports d bs e = true) :
    ∃ s', d (Src.ofBytes bs) = (.err e, s') := by
  unfold reports at h
  rcases hd : d (Src.ofBytes bs) with ⟨res, s'⟩
  rw [hd] at h
  cases res with
  | err x => exact ⟨s', by simp at h; rw [h]⟩
  | _ => cases h

/-- C05: 2^32 - 1 as an s33 -/
example : ∃ x : UInt32, (x.toNat : Int) = (4294967295 : Int64).toInt := by
  have h : ∃ r', decodeS33 (Src.ofBytes [0xFF, 0xFF, 0xFF, 0xFF, 0x0F]) = (.ok 4294967295, r') := ⟨_, rfl⟩
  exact c05_s33_fits h.choose_spec (by decide)

/-- C07: the value 2 in three bytes, and -2 in two, with a byte behind them -/
example : ∃ r', decodeU32 (Src.ofBytes [0x82, 0x80, 0x00, 0xAA]) = (.ok 2, r') ∧ avail r' = [0xAA] := by
  obtain ⟨r', h1, h2, _⟩ := c07_u32_decodes (Src.ofBytes [0x82, 0x80, 0x00, 0xAA]) 2 3 [0xAA] (by decide) (by decide)
    (by decide) (by rw [avail_ofBytes]; rfl)
  exact ⟨r', h1, h2⟩
example : ∃ r', decodeU64 (Src.ofBytes [0x82, 0x80, 0x00, 0xAA]) = (.ok 2, r') ∧ avail r' = [0xAA] := by
  obtain ⟨r', h1, h2, _⟩ := c07_u64_decodes (Src.ofBytes [0x82, 0x80, 0x00, 0xAA]) 2 3 [0xAA] (by decide) (by decide)
    (by decide) (by rw [avail_ofBytes]; rfl)
  exact ⟨r', h1, h2⟩
example : ∃ r', decodeI32 (Src.ofBytes [0xFE, 0x7F, 0xAA]) = (.ok (-2), r') ∧ avail r' = [0xAA] := by
  obtain ⟨r', h1, h2, _⟩ := c07_i32_decodes (Src.ofBytes [0xFE, 0x7F, 0xAA]) (-2) 2 [0xAA] (by decide) (by decide)
    (by decide) (by decide) (by rw [avail_ofBytes]; decide)
  exact ⟨r', h1, h2⟩
example : ∃ r', decodeI64 (Src.ofBytes [0xFE, 0x7F, 0xAA]) = (.ok (-2), r') ∧ avail r' = [0xAA] := by
  obtain ⟨r', h1, h2, _⟩ := c07_i64_decodes (Src.ofBytes [0xFE, 0x7F, 0xAA]) (-2) 2 [0xAA] (by decide) (by decide)
    (by decide) (by decide) (by rw [avail_ofBytes]; decide)
  exact ⟨r', h1, h2⟩
example : ∃ r', decodeS33 (Src.ofBytes [0xFE, 0x7F, 0xAA]) = (.ok (-2), r') ∧ avail r' = [0xAA] := by
  obtain ⟨r', h1, h2, _⟩ := c07_s33_decodes (Src.ofBytes [0xFE, 0x7F, 0xAA]) (-2) 2 [0xAA] (by decide) (by decide)
    (by decide) (by decide) (by decide) (by decide) (by rw [avail_ofBytes]; decide)
  exact ⟨r', h1, h2⟩

/-- C08: a signalling NaN -/
example : ∃ r', decodeExpr (Src.ofBytes [0x43, 0x01, 0x00, 0xA0, 0x7F, 0x0B, 0xAA]) = (.ok ([.F32Const 0x7FA00001], false), r') ∧
    avail r' = [0xAA] :=
  (c08_const_instr (Src.ofBytes [0x43, 0x01, 0x00, 0xA0, 0x7F, 0x0B, 0xAA]) [0xAA]).1 0x7FA00001
    (by rw [avail_ofBytes]; decide)

/-- C09: 0xFF in a name -/
example : ∃ e r', decodeName (Src.ofBytes [0x02, 0x61, 0xFF]) = (.err (.Utf8 e), r') ∧ e.bytes = [0x61, 0xFF] := by
  obtain ⟨e, r', h, hb, _⟩ := c09_invalid (Src.ofBytes [0x02, 0x61, 0xFF]) [0x02, 0x61, 0xFF] [] [0x61, 0xFF]
    (.mk (b := [2]) ((c07_u32 2 _).2 ⟨1, by decide⟩) (.cons (b := [_]) rfl (.cons (b := [_]) (bs := []) rfl .nil)))
    (by rw [← utf8Check_none_iff]; decide) (by rw [avail_ofBytes]; rfl)
  exact ⟨e, r', h, hb⟩

/-- C10: lists of value types -/
example : Decodes (R := Src) (decodeList ValType.decode) (BList BValType) :=
  c10_list_grammar ValType.sound (fun _ _ h => ValType.runs h)

/-- C13: a 64-bit memory with a maximum -/
example : ∃ flag rest, [0x05, 0x01, 0x02] = flag :: rest ∧ (flag = (0x01 : UInt8) ∨ flag = 0x05) := by
  have h : ∃ r', parseLimits (Src.ofBytes [0x05, 0x01, 0x02]) = (.ok ⟨.I64, 1, some 2⟩, r') := ⟨_, rfl⟩
  obtain ⟨flag, rest, h1, _, h2, _⟩ := c13_limits_flag h.choose_spec
  rw [avail_ofBytes] at h1
  exact ⟨flag, rest, h1, h2.1 rfl⟩

/-- C15, C16: at the position of `deepPosition`, in an `else` inside a `loop` -/
example : ∃ r', decodeExpr (Src.ofBytes ([0x41, 0x05, 0x03, 0x40, 0x04, 0x40, 0x05, 0x41, 0x05] ++ [0xFB, 0x1F])) =
    (.err (.ParseInstruction (.InvalidMarkerByteAfterFB 31)), r') :=
  c15_unassigned_fb deepPosition (bs := [0x1F]) (rest := []) ((c07_u32 31 _).2 ⟨1, by decide⟩)
    (unassigned_fb (by decide)) (avail_ofBytes _)
example : ∃ r', decodeExpr (Src.ofBytes ([0x41, 0x05, 0x03, 0x40, 0x04, 0x40, 0x05, 0x41, 0x05] ++ [0xFC, 0x12])) =
    (.err (.ParseInstruction (.InvalidMarkerByteAfterFC 18)), r') :=
  c15_unassigned_fc deepPosition (bs := [0x12]) (rest := []) ((c07_u32 18 _).2 ⟨1, by decide⟩)
    (unassigned_fc (by decide)) (avail_ofBytes _)
example : ∃ r', decodeExpr (Src.ofBytes ([0x41, 0x05, 0x03, 0x40, 0x04, 0x40, 0x05, 0x41, 0x05] ++ [0xFD, 0x9A, 0x01])) =
    (.err (.ParseInstruction (.Vector (.InvalidOpcode 154))), r') :=
  c15_unassigned_fd deepPosition (bs := [0x9A, 0x01]) (rest := []) ((c07_u32 154 _).2 ⟨2, by decide⟩)
    (unassigned_fd (.inr rfl)) (avail_ofBytes _)
example : ∃ r', decodeExpr (Src.ofBytes [0x41, 0x05, 0x03, 0x40, 0x04, 0x40, 0x05, 0x41, 0x05]) =
    (.err (.ParseInstruction (.ReadOpcode .unexpectedEof)), r') :=
  c16_missing_end deepPosition (avail_ofBytes _)

/-- C17, C31: the translated source text on the sample -/
example : ∃ r', Source.decode_module (Src.ofBytes (preamble ++ bytesA)) = (.ok (assemble secsA), r') := by
  rw [Source.decode_module_eq]; exact modA

/-- C18 -/
example : ∃ r', decodeModule (Src.ofBytes (preamble ++ bytesA)) = (.ok (assemble secsA), r') :=
  c18_complete (by rw [avail_ofBytes]; exact bModA) (fin_ofBytes _)

/-- C26: an entry of size 4 that holds 2 bytes: no locals, `end`. -/
example : (4 : UInt32).toNat = (2 : UInt64).toNat + (2 : UInt64).toNat :=
  (c26_mismatch (of_reports (d := parseCode) (bs := [0x04, 0x00, 0x0B, 0x01, 0x01]) (e := .EntrySizeMismatch 4 2 2)
    (by decide +kernel)).choose_spec).1

/-- C33: the reader fails behind the first three bytes of the preamble. -/
example : ∃ e r', decodeModule (⟨[.data [0x00, 0x61, 0x73], .fail (.other 5)], []⟩ : Src) = (.err e, r') ∧
    (Forced [0x00, 0x61, 0x73] e ∨ ErrInfo.root e = some (.other 5) ∨
        (ErrInfo.murky e = true ∧ Dangling [0x00, 0x61, 0x73])) :=
  c33_reported (R := Src) (r := ⟨[.data [0x00, 0x61, 0x73], .fail (.other 5)], []⟩) rfl (by decide)

/-- C38: a table without initializer -/
example : ∃ r' t, decodeTable (Src.ofBytes [0x70, 0x00, 0x03]) = (.ok t, r') ∧ t.init = [.RefNull t.type.reftype.ht] := by
  have h : ∃ t r', decodeTable (Src.ofBytes [0x70, 0x00, 0x03]) = (.ok t, r') := ⟨_, _, rfl⟩
  obtain ⟨t, r', h⟩ := h
  exact ⟨r', t, h, c38_table_default h (avail_ofBytes _) (by decide)⟩

/-- C41: an unknown section id -/
example : ∃ pre enc rest, preamble ++ [0x0E, 0x00] = pre ++ (enc ++ rest) ∧ enc ≠ [] := by
  obtain ⟨s', h⟩ := of_reports (d := decodeModule) (bs := preamble ++ [0x0E, 0x00])
    (e := .DecodeSectionHeader (.InvalidSectionId ⟨0x0E⟩)) (by decide +kernel)
  obtain ⟨pre, enc, rest, h1, h2, _⟩ := c41_module h rfl
  rw [avail_ofBytes] at h1
  exact ⟨pre, enc, rest, h1, h2⟩

/-- C41, C42: flags 128 -/
example : ∃ r', Memarg.decode (Src.ofBytes [0x80, 0x01]) = (.err (.InvalidFlagsBit 128), r') :=
  c42_flags (bs := [0x80, 0x01]) (rest := []) ((c07_u32 128 _).2 ⟨2, by decide⟩) (by decide) (avail_ofBytes _)

/-- C42: align 3, memory 1, offset 16 -/
example : ∃ flags : UInt32, (3 : UInt32).toNat = flags.toNat % 2 ^ 6 := by
  have h : ∃ r', Memarg.decode (Src.ofBytes [0x43, 0x01, 0x10]) = (.ok { align := 3, mem_idx := ⟨1⟩, offset := 16 }, r') := ⟨_, rfl⟩
  obtain ⟨flags, _, _, _, _, _, _, h, _⟩ := c42_components h.choose_spec
  exact ⟨flags, h⟩

/-- C44: the sample over a script of one chunk -/
example : ∃ s', decodeModule (Src.ofBytes (preamble ++ bytesA)) = (.ok (assemble secsA), s') ∧
    ∀ n ∈ s'.log, n < 2 ^ 32 := by
  obtain ⟨s', h⟩ := modA
  obtain ⟨new, h1, h2, _⟩ := c44_bounded h
  have e : s'.log = new := by rw [h1]; rfl
  exact ⟨s', h, by rw [e]; exact h2⟩

/-- C44: a count of 2^32 - 1 and no element is a request for room for 2^32 - 1 elements. -/
example : ∃ later, (decodeList ValType.decode (Src.ofBytes [0xFF, 0xFF, 0xFF, 0xFF, 0x0F])).2.log = 4294967295 :: later := ⟨_, rfl⟩

example : (decodeByteVector (Src.ofBytes [0xFF, 0xFF, 0xFF, 0xFF, 0x0F])).2.log = [4294967295] :=
  c44_byteVector (bs := [0xFF, 0xFF, 0xFF, 0xFF, 0x0F]) (rest := []) ((c07_u32 4294967295 _).2 ⟨5, by decide⟩) (avail_ofBytes _)

/-- C45 -/
example : 3 * 1 < 4 := by
  have h : ∃ r', decodeExpr (Src.ofBytes [0x02, 0x40, 0x0B, 0x0B]) = (.ok ([.Block .Empty []], false), r') := ⟨_, rfl⟩
  exact c45_expr h.choose_spec

/-- C45: a thousand open blocks need more than a thousand calls. -/
example : (parse 1000 (Src.ofBytes (opens 1000 ++ []))).1 = .fuel := c45_recursion 1000 _ _ (avail_ofBytes _)

/-- C45 -/
example : depthInstrs (nest 1000) = 1000 ∧
    ∃ r', decodeExpr (Src.ofBytes (opens 1000 ++ List.replicate 1001 0x0B ++ [])) = (.ok (nest 1000, false), r') ∧ avail r' = [] :=
  c45_deep_expr 1000 _ [] (avail_ofBytes _)

/-- C54: an error in the preamble -/
example : ∃ s' taken, Took (Src.ofBytes [0x00, 0x61, 0x73, 0x00, 0x01]) s' taken ∧ taken.length ≤ 8 := by
  have h : ∃ x s', decodeModule (Src.ofBytes [0x00, 0x61, 0x73, 0x00, 0x01]) = (.err (.ParsePreamble x), s') := ⟨_, _, rfl⟩
  obtain ⟨x, s', h⟩ := h
  obtain ⟨t, h1, h2⟩ := c54_preamble h
  exact ⟨s', t, h1, h2⟩

/-- C54: an error in a header -/
example : ∃ s' taken, Took (Src.ofBytes (preamble ++ [0x0E, 0x00])) s' taken := by
  obtain ⟨s', h⟩ := of_reports (d := decodeModule) (bs := preamble ++ [0x0E, 0x00])
    (e := .DecodeSectionHeader (.InvalidSectionId ⟨0x0E⟩)) (by decide +kernel)
  obtain ⟨_, _, t, _, h2, _⟩ := c54_header h
  exact ⟨s', t, h2⟩

/-- C59: the numbers in the messages -/
example : ∃ b t, [0x09, 0x00] = b ++ t ∧ BU32 b 9 := by
  obtain ⟨s', h⟩ := of_reports (d := parseElem) (bs := [0x09, 0x00]) (e := .InvalidBitfield 9) (by decide +kernel)
  obtain ⟨b, t, h1, h2, _⟩ := c59_elem_flag h
  rw [avail_ofBytes] at h1
  exact ⟨b, t, h1, h2⟩
example : ∃ b t, [0x03, 0x00] = b ++ t ∧ BU32 b 3 := by
  obtain ⟨s', h⟩ := of_reports (d := parseData) (bs := [0x03, 0x00]) (e := .InvalidBitfield 3) (by decide +kernel)
  obtain ⟨b, t, h1, h2, _⟩ := c59_data_flag h
  rw [avail_ofBytes] at h1
  exact ⟨b, t, h1, h2⟩
example : tells (MemargError.InvalidFlagsBit 128) = [128, 2, 7] := by
  obtain ⟨s', h⟩ := of_reports (d := Memarg.decode) (bs := [0x80, 0x01]) (e := .InvalidFlagsBit 128) (by decide +kernel)
  obtain ⟨_, _, _, _, _, h⟩ := c59_memarg h
  exact h
example : tells (DecodeModuleError.DataCountDatasLenMismatch 0 2) = [2, 0] := by
  obtain ⟨s', h⟩ := of_reports (d := decodeModule) (bs := preamble ++ [0x0C, 0x01, 0x02])
    (e := .DataCountDatasLenMismatch 0 2) (by decide +kernel)
  obtain ⟨_, _, _, h0, h⟩ := c59_data_count h
  rw [h0] at h
  exact h
example : ∃ c : Bytes, tells (DecodeCodeError.EntrySizeMismatch 4 2 2) = [4, c.length, 4 - c.length] := by
  obtain ⟨s', h⟩ := of_reports (d := parseCode) (bs := [0x04, 0x00, 0x0B, 0x01, 0x01]) (e := .EntrySizeMismatch 4 2 2)
    (by decide +kernel)
  obtain ⟨_, c, _, _, _, _, _, h⟩ := c59_code_size h
  exact ⟨c, h⟩
example : ∃ c : Bytes, tells (DecodeModuleError.SectionSizeMismatch .DataCount 2 1) = [2, c.length] := by
  obtain ⟨s', h⟩ := of_reports (d := decodeModule) (bs := preamble ++ [0x0C, 0x02, 0x00, 0x00])
    (e := .SectionSizeMismatch .DataCount 2 1) (by decide +kernel)
  obtain ⟨_, c, _, _, _, _, _, _, h⟩ := c59_section_size h
  exact ⟨c, h⟩

/-- C56, C57: `trap` over the sample -/
theorem trapA (ρ : List Ev → Nat) : ∃ calls s', Returns trap ρ (some (preamble ++ bytesA)) (.ok (assemble secsA)) calls s' :=
  ((c57_content (trap_delivers (preamble ++ bytesA))).1 _).2 ⟨bModA, rfl⟩

example : ∃ before e, (trapA (fun _ => 0)).choose = before ++ [e] ∧ (∀ e' ∈ before, ¬ e'.Stops) := by
  obtain ⟨s', h⟩ := (trapA (fun _ => 0)).choose_spec
  obtain ⟨before, e, h1, _, h2, _⟩ := c57_ok h
  exact ⟨before, e, h1, h2⟩

/-- C57: at most 72 reads -/
example (ρ : List Ev → Nat) : ∃ calls s', Returns trap ρ (some (preamble ++ bytesA)) (.ok (assemble secsA)) calls s' ∧
    calls.length ≤ (Src.stream calls).length + (calls.filter (· = .fail .interrupted)).length + 1 ∧
    Calls trap (some (preamble ++ bytesA)) calls s' ∧ BModule (Src.bytes calls) (assemble secsA) ∧
    decodeModule (⟨[], calls ++ [.data [0x00]]⟩ : Script ρ 0) = (.ok (assemble secsA), ⟨calls, [.data [0x00]]⟩) := by
  obtain ⟨calls, s', h⟩ := trapA ρ
  exact ⟨calls, s', h, c57_count h, c56_trace h, (c56_ok h).1, c56_calls h _⟩

/-- C56: an error is one of what has been delivered. -/
example : ∃ calls, ∀ later, FModule (Src.ending (calls ++ later)) (Src.bytes (calls ++ later)) (.SectionSizeMismatch .Custom 5 3) := by
  have h : ∃ calls s', Returns trap (fun c => c.length) (some (preamble ++ [0x00, 0x05, 0x01, 0x61, 0x62]))
    (.err (.SectionSizeMismatch .Custom 5 3)) calls s' := ⟨_, _, 40, rfl, by simp⟩
  obtain ⟨calls, s', h⟩ := h
  exact ⟨calls, c56_err h⟩

/-- C16: `i32.const 5`, `else` -/
example : ∃ r', decodeExpr (Src.ofBytes [0x41, 0x05, 0x05, 0x0B]) = (.err .UnexpectedElse, r') :=
  c16_toplevel_else (pre := [0x41, 0x05]) (rest := [0x0B]) (.cons (bs := []) i32Const5 .nil) (avail_ofBytes _)

/-- C17, C31: the translated source text -/
example : BModule (preamble ++ bytesA) (assemble secsA) := by
  have h : ∃ r', Source.decode_module (Src.ofBytes (preamble ++ bytesA)) = (.ok (assemble secsA), r') := by
    rw [Source.decode_module_eq]; exact modA
  have := c17_source h.choose_spec
  rwa [avail_ofBytes] at this

/-- C31: the sample in one chunk, and interrupted behind its first byte -/
example : (Source.decode_module (⟨[.data [0x00], .fail .interrupted, .data ((preamble ++ bytesA).drop 1)], []⟩ : Src)).1 =
    .ok (assemble secsA) := by
  obtain ⟨r', h⟩ := modA
  rw [c31_source (Src.ofBytes (preamble ++ bytesA)) (⟨[.data [0x00], .fail .interrupted, .data ((preamble ++ bytesA).drop 1)], []⟩ : Src)
    (by rfl) (by rfl), Source.decode_module_eq, h]

/-- C33: a module that ends inside a section -/
example : ∃ e r', decodeModule (Src.ofBytes (preamble ++ [0x01, 0x05, 0x01])) = (.err e, r') ∧
    ErrInfo.root e = some .unexpectedEof := ⟨_, _, rfl, rfl⟩

/-- C35 -/
example {m : Module} (h : BModule (preamble ++ bytesA) m) : m = assemble secsA := c35_module h bModA

/-- C36: the bytes of the encoding -/
example : BModule (encModule (assemble secsA)) { assemble secsA with
    parsed_section_kinds := nonCustom (sectionsOf (assemble secsA)), section_headers := headersOf (assemble secsA) } :=
  c36_encodes writableA

/-- C41: an unknown opcode, and a storage type that is none -/
example : ∃ pre enc rest : Bytes, [0x01, 0x27] = pre ++ (enc ++ rest) ∧ enc ≠ [] := by
  obtain ⟨s', h⟩ := of_reports (d := decodeExpr) (bs := [0x01, 0x27])
    (e := .ParseInstruction (.InvalidOpcode 0x27)) (by decide +kernel)
  obtain ⟨pre, enc, rest, h1, h2, _⟩ := c41_expr h rfl
  rw [avail_ofBytes] at h1
  exact ⟨pre, enc, rest, h1, h2⟩
example : ∃ t, [0x10, 0x20] = (0x10 : UInt8) :: t := by
  have h : ∃ e s', decodeStorageType (Src.ofBytes [0x10, 0x20]) = (.err (.DecodeValTypeOrPackType 0x10 e), s') := ⟨_, _, rfl⟩
  obtain ⟨e, s', h⟩ := h
  have := (c41_storage h).1
  rwa [avail_ofBytes] at this

/-- C46, C61: the program on a file that does not open -/
example : cliMain sampleText true (.error (.other 2) : Except IoError Src) =
    ⟨"", Spec.report true "os error 2" [] (sampleText.debugIo (.other 2)), 1⟩ :=
  c46_open sampleText true (.other 2) rfl

example : ∃ enough, ∀ fuel, enough ≤ fuel →
    (Source.outcome (Source.main sampleText fuel ⟨⟨(.error (.other 2) : Except IoError Src)⟩, true⟩) []).code = 1 := by
  obtain ⟨n, h⟩ := c61_report sampleText (by intro x; cases x <;> simp [sampleText]) true (.error (.other 2) : Except IoError Src)
    (by rintro ⟨m, r, h, _⟩; cases h)
  exact ⟨n, fun fuel hf => (h fuel hf).1⟩

/-- C47: decoding the sample twice -/
example : Module.eq (assemble secsA) (assemble secsA) = true ↔ NaNFree (assemble secsA) :=
  c47_decode rfl modA.choose_spec modA.choose_spec

/-- C56: what the reader delivers decides. -/
example (ρ : List Ev → Nat) {res : Res DecodeModuleError Module} {calls : List Ev} {s' : Option Bytes}
    (h : Returns trap ρ (some (preamble ++ bytesA)) res calls s') : res = .ok (assemble secsA) := by
  obtain ⟨_, _, h'⟩ := trapA ρ
  exact (c56_deterministic h h').1

/-- C56: a reader that is interrupted for ever -/
example (ρ : List Ev → Nat) {res : Res DecodeModuleError Module} {calls : List Ev} :
    ¬ Returns (⟨fun _ s => (.error .interrupted, s), fun h => by cases h⟩ : Impl Unit) ρ () res calls () :=
  c56_interrupted (fun _ _ => rfl)

/-- C60: the reader fails behind the preamble. -/
example : ∃ e r', decodeModule (⟨[.data preamble, .fail (.other 5)], []⟩ : Src) = (.err e, r') ∧
    (Forced preamble e ∨ (∃ own, ∀ io, ErrText.chain io e = own ++ io (.other 5)) ∨
      (∃ own, ∃ t ∈ cutTexts, ∀ io, ErrText.chain io e = own ++ [t])) := by
  have h : ∃ e r', decodeModule (⟨[.data preamble, .fail (.other 5)], []⟩ : Src) = (.err e, r') := ⟨_, _, rfl⟩
  obtain ⟨e, r', h⟩ := h
  exact ⟨e, r', h, c60_reader (R := Src) (x := .other 5) rfl (by decide) h⟩

end Wadec
