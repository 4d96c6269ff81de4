import Verif.Proof.Texts
import Verif.Proof.FaultModule
import Verif.Props.Fault
import Verif.Props.Sections

/-! C59: error messages about sizes, counts and positions tell the truth.

`tells e` (Spec/Texts.lean) are the decimal numbers in the last message of the error `e`, `firstTells e`
those in its first message, read back from the text. -/

namespace Wadec

open LawfulRead Spec

variable {R : Type} [LawfulRead R]

theorem kind_numbers (k : SectionKind) : numbers k.debug = [] := by cases k <;> decide +kernel

theorem section_size_tells (k : SectionKind) (n : UInt32) (g : UInt64) :
    tells (DecodeModuleError.SectionSizeMismatch k n g) = [n.toNat, g.toNat] := by
  show numbers (k.debug ++ " section size mismatch: declared " ++ toString n.toNat ++ " bytes; got " ++
      toString g.toNat) = _
  rw [numbers_num _ (by decide +kernel), numbers_num _ (by decide +kernel), kind_numbers]
  have h1 : numbers " section size mismatch: declared " = [] := by decide +kernel
  have h2 : numbers " bytes; got " = [] := by decide +kernel
  rw [h1, h2]; rfl

/-- C59: a section whose contents are shorter than declared.  The message shows the declared size and
the length of the contents. -/
theorem c59_section_size {r r' : R} {k : SectionKind} {n : UInt32} {g : UInt64}
    (h : decodeModule r = (.err (.SectionSizeMismatch k n g), r')) :
    ∃ (s : List Section) (c t : Bytes) (v : Section), AtSection (avail r) s k n (c ++ t) ∧ v.kind = k ∧
      BContents c v ∧ c.length < n.toNat ∧
      tells (DecodeModuleError.SectionSizeMismatch k n g) = [n.toNat, c.length] := by
  rw [section_size_tells]
  have hf := (module_faults r _).1 ⟨r', h⟩
  generalize avail r = bs at hf
  cases hf with
  | @contents b s k n c e h1 h2 h3 =>
    generalize c.take n.toNat = cs at h3
    cases h3
  | size h1 h2 h3 h4 h5 h6 h7 => exact ⟨_, _, _, _, h1, h3, h4, h7, by rw [h6]⟩
  | @customSize b s n c v g h1 h2 h3 h4 h5 =>
    exact ⟨s, c, [], .custom v, by simpa using h1, rfl, .custom h3, h5, by rw [h4]⟩

theorem code_size_tells (n : UInt32) (k m : UInt64) :
    tells (DecodeCodeError.EntrySizeMismatch n k m) = [n.toNat, m.toNat, k.toNat] := by
  show numbers ("Code entry size mismatch: declared " ++ toString n.toNat ++ " bytes; consumed " ++
    toString m.toNat ++ " (leftover: " ++ toString k.toNat ++ ")") = _
  rw [numbers_lit _ (by decide +kernel), numbers_num _ (by decide +kernel), numbers_num _ (by decide +kernel),
    numbers_num' (by decide +kernel)]
  have h1 : numbers "Code entry size mismatch: declared " = [] := by decide +kernel
  have h2 : numbers " bytes; consumed " = [] := by decide +kernel
  have h3 : numbers " (leftover: " = [] := by decide +kernel
  have h4 : numbers ")" = [] := by decide +kernel
  rw [h1, h2, h3, h4]; rfl

/-- C59: a function that is shorter than the declared size.  The message shows the declared size, the
length of the function, and the difference. -/
theorem c59_code_size {r r' : R} {n : UInt32} {k m : UInt64}
    (h : parseCode r = (.err (.EntrySizeMismatch n k m), r')) :
    ∃ (b c t : Bytes) (v : CodeEntry), avail r = b ++ (c ++ t) ∧ BU32 b n ∧ BFunc c v ∧
      tells (DecodeCodeError.EntrySizeMismatch n k m) = [n.toNat, c.length, n.toNat - c.length] := by
  rw [code_size_tells]
  have hf := (code_faults r _).1 ⟨r', h⟩
  generalize avail r = bs at hf
  cases hf with
  | leftover h1 h2 h3 h4 h5 => exact ⟨_, _, _, _, rfl, h1, h2, by rw [h3, h4]⟩

theorem locals_tells (a b : UInt64) :
    tells (DecodeCodeLocalsError.LocalsCountOutOfBound a b) = [a.toNat, b.toNat] := by
  show numbers ("too many locals: expected at most " ++ toString a.toNat ++ "; got " ++ toString b.toNat) = _
  rw [numbers_num _ (by decide +kernel), numbers_num' (by decide +kernel)]
  have h1 : numbers "too many locals: expected at most " = [] := by decide +kernel
  have h2 : numbers "; got " = [] := by decide +kernel
  rw [h1, h2]; rfl

theorem position_tells {E : Type} [ErrText E] (i : UInt32) (e : E) :
    firstTells (DecodeListError.ParseElement i e) = [i.toNat] := by
  show numbers ("failed parsing vector element at position " ++ toString i.toNat) = _
  rw [numbers_num' (by decide +kernel)]
  have h1 : numbers "failed parsing vector element at position " = [] := by decide +kernel
  rw [h1]; rfl

/-- C59: too many locals.  The last message shows the largest possible number of locals, and the number
of locals up to and including the run at which the decoder stops; the message before it shows how many
runs precede that one. -/
theorem c59_locals {r r' : R} {i : UInt32} {a b : UInt64}
    (h : parseCode r = (.err (.DecodeLocalsVector (.ParseElement i (.LocalsCountOutOfBound a b))), r')) :
    ∃ (b1 b2 b3 b4 t rest : Bytes) (size runs k : UInt32) (l : List (UInt32 × ValType)),
      avail r = b1 ++ rest ∧ BU32 b1 size ∧ rest.take size.toNat = b2 ++ (b3 ++ (b4 ++ t)) ∧
      BU32 b2 runs ∧ BSeq BLocals b3 l ∧ l.length < runs.toNat ∧ BU32 b4 k ∧
      firstTells (DecodeListError.ParseElement i (DecodeCodeLocalsError.LocalsCountOutOfBound a b)) = [l.length] ∧
      tells (DecodeCodeLocalsError.LocalsCountOutOfBound a b) =
        [2 ^ 32 - 1, (localsOf l).length + k.toNat] ∧
      2 ^ 32 - 1 < (localsOf l).length + k.toNat := by
  rw [locals_tells, position_tells]
  have hf := (code_faults r _).1 ⟨r', h⟩
  generalize avail r = bs at hf
  cases hf with
  | @locals b1 c e size h1 h2 =>
    generalize hc : c.take size.toNat = cs at h2
    cases h2 with
    | @tooMany b2 b3 l d t n i k s g1 g2 g3 g4 g5 g6 g7 g8 =>
      exact ⟨b1, b2, b3, d, t, c, size, n, k, l, rfl, h1, hc, g1, g2, g4, g6, by rw [g3],
        by rw [g7]; rfl, by omega⟩

/-- C59: the flag of a data segment, and of an element segment. -/
theorem c59_data_flag {r r' : R} {n : UInt32} (h : parseData r = (.err (.InvalidBitfield n), r')) :
    ∃ b t, avail r = b ++ t ∧ BU32 b n ∧ n.toNat ∉ [0, 1, 2] ∧
      tells (DecodeDataSegmentError.InvalidBitfield n) = [0, 1, 2] ++ [n.toNat] := by
  have hf := (data_faults r _).1 ⟨r', h⟩
  generalize avail r = bs at hf
  cases hf with
  | flagRange h1 h2 =>
    refine ⟨_, _, rfl, h1, by simp; omega, ?_⟩
    show numbers ("invalid bitfield: expected 0 (passive), 1 or 2 (active); got " ++ toString n.toNat) = _
    rw [numbers_num' (by decide +kernel)]
    congr 1

theorem c59_elem_flag {r r' : R} {n : UInt32} (h : parseElem r = (.err (.InvalidBitfield n), r')) :
    ∃ b t, avail r = b ++ t ∧ BU32 b n ∧ ¬ (0 ≤ n.toNat ∧ n.toNat ≤ 7) ∧
      tells (DecodeElementError.InvalidBitfield n) = [0, 7] ++ [n.toNat] := by
  have hf := (elem_faults r _).1 ⟨r', h⟩
  generalize avail r = bs at hf
  cases hf with
  | flagRange h1 h2 =>
    refine ⟨_, _, rfl, h1, by omega, ?_⟩
    show numbers ("invalid bitfield: expected value in range [0,7]; got " ++ toString n.toNat) = _
    rw [numbers_num' (by decide +kernel)]
    congr 1

/-- C59: the flags of a memory argument: the message shows them and the bound `2^7`. -/
theorem c59_memarg {r r' : R} {n : UInt32} (h : Memarg.decode r = (.err (.InvalidFlagsBit n), r')) :
    ∃ b t, avail r = b ++ t ∧ BU32 b n ∧ ¬ n.toNat < 2 ^ 7 ∧
      tells (MemargError.InvalidFlagsBit n) = [n.toNat] ++ [2, 7] := by
  have hf := (Memarg.faults r _).1 ⟨r', h⟩
  generalize avail r = bs at hf
  cases hf with
  | flags h1 h2 =>
    refine ⟨_, _, rfl, h1, by omega, ?_⟩
    show numbers ("Invalid alignment flag " ++ toString n.toNat ++ "; should be less than 2^7") = _
    rw [numbers_append _ ⟨';', " should be less than 2^7".toList, by decide +kernel, by decide⟩,
      numbers_num' (by decide +kernel)]
    have h1 : numbers "Invalid alignment flag " = [] := by decide +kernel
    have h2 : numbers "; should be less than 2^7" = [2, 7] := by decide +kernel
    rw [h1, h2]; rfl

/-- C59: a name that is not UTF-8.  The message shows the length of its longest beginning that is
UTF-8, and, if no further bytes could complete the name, how many of the next bytes are to be discarded.
(The number 8 is that of "utf-8".) -/
theorem c59_utf8 {r r' : R} {e : FromUtf8Error} (h : decodeName r = (.err (.Utf8 e), r')) :
    ∃ (b t p q : Bytes), avail r = b ++ t ∧ BByteVec b (p ++ q) ∧ ValidUtf8 p ∧
      ((tells (DecodeNameError.Utf8 e) = [8, p.length] ∧ q ≠ [] ∧ ∃ c, q <+: utf8Char c ∧ q ≠ utf8Char c) ∨
       (∃ n, tells (DecodeNameError.Utf8 e) = [8, n, p.length] ∧ 1 ≤ n ∧ n ≤ q.length ∧ ∀ c, ¬ utf8Char c <+: q)) := by
  have hf := (name_faults r _).1 ⟨r', h⟩
  generalize avail r = bs at hf
  cases hf with
  | @utf8 b v e t h1 h2 =>
    cases h2 with
    | @incomplete p q c g1 g2 g3 g4 =>
      refine ⟨b, t, p, q, rfl, h1, g1, .inl ⟨?_, g2, c, g3, g4⟩⟩
      show numbers ("incomplete utf-8 byte sequence from index " ++ toString p.length) = _
      rw [numbers_num' (by decide +kernel)]
      have h1 : numbers "incomplete utf-8 byte sequence from index " = [8] := by decide +kernel
      rw [h1]; rfl
    | @invalid p q n g1 g2 g3 g4 g5 g6 =>
      refine ⟨b, t, p, q, rfl, h1, g1, .inr ⟨n, ?_, g2, g3, g4⟩⟩
      show numbers ("invalid utf-8 sequence of " ++ toString n ++ " bytes from index " ++ toString p.length) = _
      rw [numbers_num _ (by decide +kernel), numbers_num' (by decide +kernel)]
      have h1 : numbers "invalid utf-8 sequence of " = [8] := by decide +kernel
      have h2 : numbers " bytes from index " = [] := by decide +kernel
      rw [h1, h2]; rfl

/-- C59: the data count section announces segments and there is no data section. -/
theorem c59_data_count {r r' : R} {m : Nat} {n : UInt32}
    (h : decodeModule r = (.err (.DataCountDatasLenMismatch m n), r')) :
    ∃ s, AtEnd (avail r) s ∧ dataCountOf s = some n ∧ datasOf s = [] ∧
      tells (DecodeModuleError.DataCountDatasLenMismatch m n) = [n.toNat, (datasOf s).length] := by
  have hf := (module_faults r _).1 ⟨r', h⟩
  generalize avail r = bs at hf
  cases hf with
  | @contents b s k n c e h1 h2 h3 =>
    generalize c.take n.toNat = cs at h3
    cases h3
  | @noData b s n h1 h2 h3 h4 h5 h6 =>
    have hd : datasOf s = [] := datasOf_nil h4
    refine ⟨s, h1, h5, hd, ?_⟩
    rw [hd]
    show numbers ("Data Count section does not match Datas length: declared " ++ toString n.toNat ++ "; got " ++
      toString 0) = _
    rw [numbers_num _ (by decide +kernel), numbers_num' (by decide +kernel)]
    have h1 : numbers "Data Count section does not match Datas length: declared " = [] := by decide +kernel
    have h2 : numbers "; got " = [] := by decide +kernel
    rw [h1, h2]; rfl

/-! ### Positions in lists -/

theorem tellsPosition {E α β : Type} [ErrText E] {f : Dec R E α} {F : End → Bytes → E → Prop}
    {B : Bytes → β → Prop} (hF : Faults (decodeList f) (FList F B)) : TellsPosition (decodeList f) B := by
  intro r i e r' h
  rw [position_tells]
  have hf := (hF r _).1 ⟨r', h⟩
  generalize avail r = bs at hf
  cases hf with
  | element h1 h2 h3 h4 h5 => exact ⟨_, _, _, _, _, rfl, h1, h2, h4, by rw [h3]⟩

/-- C59: the lists of the sections. -/
theorem c59_positions :
    TellsPosition (decodeList RecType.decode : Dec R _ _) BRecType ∧
    TellsPosition (decodeList parseImport : Dec R _ _) BImport ∧
    TellsPosition (decodeList TypeIdx.decode : Dec R _ _) BTypeIdx ∧
    TellsPosition (decodeList decodeTable : Dec R _ _) BTable ∧
    TellsPosition (decodeList parseMemType : Dec R _ _) BMemType ∧
    TellsPosition (decodeList TagType.decode : Dec R _ _) BTagType ∧
    TellsPosition (decodeList parseGlobal : Dec R _ _) BGlobal ∧
    TellsPosition (decodeList parseExport : Dec R _ _) BExport ∧
    TellsPosition (decodeList parseElem : Dec R _ _) BElem ∧
    TellsPosition (decodeList parseCode : Dec R _ _) BCode ∧
    TellsPosition (decodeList parseData : Dec R _ _) BData :=
  ⟨tellsPosition recTypes_faults, tellsPosition imports_faults, tellsPosition typeIdxs_faults,
    tellsPosition tables_faults, tellsPosition mems_faults, tellsPosition tags_faults,
    tellsPosition globals_faults, tellsPosition exports_faults, tellsPosition elems_faults,
    tellsPosition codes_faults, tellsPosition datas_faults⟩

/-- C59: the lists inside types, instructions and element segments. -/
theorem c59_inner_positions :
    TellsPosition (decodeList SubType.decode : Dec R _ _) BSubType ∧
    TellsPosition (decodeList decodeFieldType : Dec R _ _) BFieldType ∧
    TellsPosition (decodeList ValType.decode : Dec R _ _) BValType ∧
    TellsPosition (decodeList LabelIdx.decode : Dec R _ _) BLabelIdx ∧
    TellsPosition (decodeList Catch.decode : Dec R _ _) BCatch ∧
    TellsPosition (decodeList FuncIdx.decode : Dec R _ _) BFuncIdx ∧
    TellsPosition (decodeList decodeExpr' : Dec R _ _) BExpr :=
  ⟨tellsPosition subTypes_faults, tellsPosition fieldTypes_faults, tellsPosition valTypes_faults,
    tellsPosition labels_faults, tellsPosition catches_faults, tellsPosition funcIdxs_faults,
    tellsPosition exprs_faults⟩

/-! ### Examples -/

/-- A start section that declares 3 bytes, of which 1 is used: "Start section size mismatch: declared 3
bytes; got 1". -/
example : ∃ e r', decodeModule (Src.ofBytes (preamble ++ [0x08, 0x03, 0x00, 0x00, 0x00])) = (.err e, r') ∧
    tells e = [3, 1] :=
  ⟨.SectionSizeMismatch .Start 3 1, _, rfl, by decide +kernel⟩

/-- A function that declares 5 bytes, of which 2 are used. -/
example : ∃ e r', parseCode (Src.ofBytes [0x05, 0x00, 0x0B, 0x01, 0x01, 0x01]) = (.err e, r') ∧
    tells e = [5, 2, 3] :=
  ⟨.EntrySizeMismatch 5 3 2, _, rfl, by decide +kernel⟩

/-- 2^32 - 1 locals and then another one. -/
example : ∃ e r', parseCode (Src.ofBytes [0x0A, 0x02, 0xFF, 0xFF, 0xFF, 0xFF, 0x0F, 0x7F, 0x01, 0x7F, 0x0B]) =
      (.err (.DecodeLocalsVector e), r') ∧ firstTells e = [1] ∧ tells e = [4294967295, 4294967296] := by
  obtain ⟨r', h⟩ := tooManyLocals
  exact ⟨_, r', h, by decide +kernel, by decide +kernel⟩

/-- A data segment with flag 3. -/
example : ∃ e r', parseData (Src.ofBytes [0x03]) = (.err e, r') ∧ tells e = [0, 1, 2, 3] :=
  ⟨.InvalidBitfield 3, _, rfl, by decide +kernel⟩

/-- The third tag is bad. -/
example : ∃ e r', decodeList (TagType.decode : Dec Src _ _) (Src.ofBytes [0x04, 0x00, 0x07, 0x00, 0x08, 0x01]) =
    (.err e, r') ∧ firstTells e = [2] :=
  ⟨.ParseElement 2 (.InvalidMarkerByte 1), _, rfl, by decide +kernel⟩

/-- The name 61 C3. -/
example : ∃ e r', decodeName (Src.ofBytes [0x02, 0x61, 0xC3]) = (.err (.Utf8 e), r') ∧ tells e = [8, 1] :=
  ⟨⟨[0x61, 0xC3], 1, none⟩, _, rfl, by decide +kernel⟩

end Wadec
