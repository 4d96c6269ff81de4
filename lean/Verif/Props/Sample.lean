import Verif.Props.Counts

/-! A small but non-trivial module, used to show that the hypotheses of the module-level theorems
are met, and inputs that are almost modules. -/

namespace Wadec

open Spec LawfulRead

/-! ### One section each -/

/-- custom section named "a" with contents 1 2 3 -/
def secCustom : Bytes := [0x00, 0x05, 0x01, 0x61, 0x01, 0x02, 0x03]
/-- type section: `func [] → []` -/
def secType : Bytes := [0x01, 0x04, 0x01, 0x60, 0x00, 0x00]
/-- function section: one function of type 0 -/
def secFunction : Bytes := [0x03, 0x02, 0x01, 0x00]
/-- data count section: 1 -/
def secDataCount : Bytes := [0x0C, 0x01, 0x01]
/-- code section: two i32 locals, body `block (data.drop 0) end` -/
def secCode : Bytes :=
  [0x0A, 0x0C, 0x01, 0x0A, 0x01, 0x02, 0x7F, 0x02, 0x40, 0xFC, 0x09, 0x00, 0x0B, 0x0B]
/-- data section: one passive segment FF -/
def secData : Bytes := [0x0B, 0x04, 0x01, 0x01, 0x01, 0xFF]
/-- global section: `i32` constant global whose initialiser contains `data.drop 0` (well-formed,
not valid) -/
def secGlobal : Bytes := [0x06, 0x07, 0x01, 0x7F, 0x00, 0xFC, 0x09, 0x00, 0x0B]

def customA : CustomSection := ⟨⟨[0x61]⟩, [1, 2, 3]⟩
def dataDrop : Instr := .DataDrop ⟨0⟩
def codeA : CodeEntry := ⟨[.Num .Int32, .Num .Int32], [.Block .Empty [dataDrop]]⟩
def recA : RecType := ⟨[⟨true, [], .Func [] []⟩]⟩
def dataA : Data := ⟨[0xFF], .Passive⟩
def globalA : Global := ⟨⟨.Const, .Num .Int32⟩, [dataDrop]⟩

theorem nameA : BName [0x01, 0x61] ⟨[0x61]⟩ := by
  refine ⟨.mk (b := [0x01]) (bs := [0x61]) (xs := [0x61]) ((c07_u32 1 _).2 ⟨1, by decide⟩) ?_, ?_⟩
  · exact .cons (b := [0x61]) (bs := []) rfl .nil
  · exact ⟨['a'], by rfl⟩

theorem bCustom : BSection secCustom (5, .custom customA) :=
  .mk (b1 := [0x05]) (b2 := [0x01, 0x61, 0x01, 0x02, 0x03]) (s := .custom customA)
    ((c07_u32 5 _).2 ⟨1, by decide⟩) rfl
    (.custom (.mk (b := [0x01, 0x61]) (contents := [1, 2, 3]) nameA))

theorem emptyList {α : Type} {B : Bytes → α → Prop} : BList B [0x00] [] :=
  .mk (b := [0x00]) (bs := []) (xs := []) u0 .nil

theorem single {α : Type} {B : Bytes → α → Prop} {b : Bytes} {x : α} (h : B b x) :
    BList B (0x01 :: b) [x] := by
  refine .mk (b := [0x01]) (bs := b) (xs := [x]) ((c07_u32 1 _).2 ⟨1, by decide⟩) ?_
  have := BSeq.cons (bs := []) h .nil
  rwa [List.append_nil] at this

theorem bType : BSection secType (4, .type [recA]) :=
  .mk (b1 := [0x04]) (b2 := [0x01, 0x60, 0x00, 0x00]) (s := .type [recA])
    ((c07_u32 4 _).2 ⟨1, by decide⟩) rfl
    (.type (single (.single (.comp (.func (b1 := [0x00]) (b2 := [0x00]) emptyList emptyList)))))

theorem bFunction : BSection secFunction (2, .function [⟨0⟩]) :=
  .mk (b1 := [0x02]) (b2 := [0x01, 0x00]) (s := .function [⟨0⟩])
    ((c07_u32 2 _).2 ⟨1, by decide⟩) rfl
    (.function (single (b := [0x00]) ((c07_u32 0 [0x00]).2 ⟨1, by decide⟩)))

theorem bDataCount : BSection secDataCount (1, .dataCount 1) :=
  .mk (b1 := [0x01]) (b2 := [0x01]) (s := .dataCount 1)
    ((c07_u32 1 _).2 ⟨1, by decide⟩) rfl (.dataCount ((c07_u32 1 [0x01]).2 ⟨1, by decide⟩))

theorem bDataDrop : BInstr [0xFC, 0x09, 0x00] dataDrop :=
  .leaf (b := [0xFC, 0x09]) (imms := [0x00]) (.fc (bs := [0x09]) (n := 9) ((c07_u32 9 [0x09]).2 ⟨1, by decide⟩))
    (.dataDrop ((c07_u32 0 [0x00]).2 ⟨1, by decide⟩))

theorem bBody : BExpr [0x02, 0x40, 0xFC, 0x09, 0x00, 0x0B, 0x0B] codeA.body :=
  .mk (bs := [0x02, 0x40, 0xFC, 0x09, 0x00, 0x0B])
    (.cons (b := [0x02, 0x40, 0xFC, 0x09, 0x00, 0x0B]) (bs := [])
      (.block (b1 := [0x40]) (b2 := [0xFC, 0x09, 0x00]) .empty
        (.cons (b := [0xFC, 0x09, 0x00]) (bs := []) bDataDrop .nil)) .nil)

theorem codeContents : BContents
    [0x01, 0x0A, 0x01, 0x02, 0x7F, 0x02, 0x40, 0xFC, 0x09, 0x00, 0x0B, 0x0B] (.code [codeA]) :=
  .code (single (.mk (b1 := [0x0A])
    (b2 := [0x01, 0x02, 0x7F, 0x02, 0x40, 0xFC, 0x09, 0x00, 0x0B, 0x0B])
    ((c07_u32 10 _).2 ⟨1, by decide⟩)
    (.mk (b1 := [0x01, 0x02, 0x7F]) (b2 := [0x02, 0x40, 0xFC, 0x09, 0x00, 0x0B, 0x0B])
      (runs := [(2, .Num .Int32)])
      (single (.mk (b1 := [0x02]) (b2 := [0x7F]) ((c07_u32 2 [0x02]).2 ⟨1, by decide⟩) .i32))
      bBody (by decide))))

theorem bCode : BSection secCode (12, .code [codeA]) :=
  .mk (b1 := [0x0C]) (b2 := [0x01, 0x0A, 0x01, 0x02, 0x7F, 0x02, 0x40, 0xFC, 0x09, 0x00, 0x0B, 0x0B])
    (s := .code [codeA]) ((c07_u32 12 _).2 ⟨1, by decide⟩) rfl codeContents

theorem bDatas : BList BData [0x01, 0x01, 0x01, 0xFF] [dataA] :=
  single (.passive (b0 := [0x01]) (b1 := [0x01, 0xFF]) ((c07_u32 1 _).2 ⟨1, by decide⟩)
    (single rfl))

theorem bData : BSection secData (4, .data [dataA]) :=
  .mk (b1 := [0x04]) (b2 := [0x01, 0x01, 0x01, 0xFF]) (s := .data [dataA])
    ((c07_u32 4 _).2 ⟨1, by decide⟩) rfl (.data bDatas)

theorem bGlobal : BSection secGlobal (7, .global [globalA]) :=
  .mk (b1 := [0x07]) (b2 := [0x01, 0x7F, 0x00, 0xFC, 0x09, 0x00, 0x0B]) (s := .global [globalA])
    ((c07_u32 7 _).2 ⟨1, by decide⟩) rfl
    (.global (single (.mk (b1 := [0x7F, 0x00]) (b2 := [0xFC, 0x09, 0x00, 0x0B])
      (.mk (b1 := [0x7F]) (b2 := [0x00]) .i32 .const)
      (.mk (bs := [0xFC, 0x09, 0x00])
        (.cons (b := [0xFC, 0x09, 0x00]) (bs := []) bDataDrop .nil)))))

/-! ### Sequences of sections -/

theorem usesA : ∃ c ∈ [codeA], ∃ i ∈ c.body, UsesData i :=
  ⟨codeA, List.mem_singleton.2 rfl, _, List.mem_singleton.2 rfl,
    .block (List.mem_singleton.2 rfl) .dataDrop⟩

theorem seq1 {α : Type} {B : Bytes → α → Prop} {b : Bytes} {x : α} (h : B b x) : BSeq B b [x] := by
  have := BSeq.cons (bs := []) h .nil
  rwa [List.append_nil] at this

/-- A module with custom sections at three places. -/
def secsA : List (UInt32 × Section) :=
  [(5, .custom customA), (4, .type [recA]), (2, .function [⟨0⟩]), (7, .global [globalA]),
   (5, .custom customA), (1, .dataCount 1), (12, .code [codeA]), (4, .data [dataA]),
   (5, .custom customA)]
def bytesB : Bytes :=
  secType ++ (secFunction ++ (secGlobal ++ (secCustom ++ (secDataCount ++ (secCode ++
    (secData ++ secCustom))))))
def bytesA : Bytes := secCustom ++ bytesB

theorem bSecsB : BSeq BSection bytesB (secsA.drop 1) :=
  .cons bType (.cons bFunction (.cons bGlobal (.cons bCustom (.cons bDataCount
    (.cons bCode (.cons bData (seq1 bCustom)))))))

theorem bSecsA : BSeq BSection bytesA secsA := .cons bCustom bSecsB

theorem wfA : WellFormed (secsA.map Prod.snd) :=
  ⟨by decide, by decide, fun n h => by cases h; rfl, fun _ h => by cases h⟩

theorem bModA : BModule (preamble ++ bytesA) (assemble secsA) := .mk bSecsA wfA

/-- C17, C18: a module with every kind of check passed. -/
theorem modA : ∃ r', decodeModule (Src.ofBytes (preamble ++ bytesA)) = (.ok (assemble secsA), r') :=
  (c18_bytes _ _).2 bModA

/-- the module as the user sees it -/
example : assemble secsA =
    { version := [1, 0, 0, 0]
      parsed_section_kinds := [.Type, .Function, .Global, .DataCount, .Code, .Data]
      section_headers := [⟨.Custom, 5⟩, ⟨.Type, 4⟩, ⟨.Function, 2⟩, ⟨.Global, 7⟩, ⟨.Custom, 5⟩,
        ⟨.DataCount, 1⟩, ⟨.Code, 12⟩, ⟨.Data, 4⟩, ⟨.Custom, 5⟩]
      custom_sections := [customA, customA, customA]
      types := [recA]
      funcs := [⟨⟨0⟩, [.Num .Int32, .Num .Int32], [.Block .Empty [dataDrop]]⟩]
      tables := [], mems := [], globals := [globalA], elems := [], data_count := some 1
      datas := [dataA], start := none, imports := [], exports := [], tags := [] } := rfl

/-! ### Hypotheses met, errors reached -/

theorem acc1 {size : UInt32} {s : Section} (h1 : s.kind ≠ .Code) (h2 : s.kind ≠ .Data) :
    Acceptable ([(size, s)].map Prod.snd) := by
  refine ⟨?_, ?_, ?_⟩
  · have : ∀ k : SectionKind, List.Sublist ([k].filter (· ≠ .Custom)) sectionOrder := by
      intro k; cases k <;> decide
    exact this s.kind
  · rintro ⟨t, ht, hk⟩; cases List.mem_singleton.1 ht; exact absurd hk h1
  · rintro ⟨t, ht, hk⟩; cases List.mem_singleton.1 ht; exact absurd hk h2

/-- C19: two type sections. -/
example : ∃ r', decodeModule (Src.ofBytes (preamble ++ (secType ++ secType))) =
    (.err (.DuplicateSection .Type), r') :=
  c19_duplicate.2 ⟨[.type [recA]], 4, [0x01, 0x60, 0x00, 0x00], by
    rw [avail_ofBytes]
    exact AtSection.mk (bs := secType) (b1 := [0x04]) (secs := [(4, .type [recA])]) (k := .Type)
      (seq1 bType) (acc1 (by decide) (by decide)) ((c07_u32 4 _).2 ⟨1, by decide⟩), rfl⟩

/-- C19: a type section after the function section, with a custom section between them. -/
example : ∃ r', decodeModule (Src.ofBytes (preamble ++ ((secFunction ++ secCustom) ++ secType))) =
    (.err (.SectionOutOfOrder .Type .Function), r') :=
  c19_outOfOrder.2 ⟨[.function [⟨0⟩], .custom customA], 4, [0x01, 0x60, 0x00, 0x00], by
    rw [avail_ofBytes]
    exact AtSection.mk (bs := secFunction ++ secCustom) (b1 := [0x04])
      (secs := [(2, .function [⟨0⟩]), (5, .custom customA)]) (k := .Type)
      (.cons bFunction (seq1 bCustom))
      ⟨by decide, by simp [Section.kind], by simp [Section.kind]⟩
      ((c07_u32 4 _).2 ⟨1, by decide⟩), rfl, by unfold Before; decide⟩

/-- C21: a stray byte behind a module. -/
example : ∀ m s', decodeModule (Src.ofBytes ((preamble ++ bytesA) ++ [0x0E])) ≠ (.ok m, s') := by
  obtain ⟨r', h⟩ := modA
  refine c21_garbage h (t := [0x0E]) (by rw [avail_ofBytes, avail_ofBytes]) ?_
  rintro ⟨secs, hs⟩
  generalize hb : [(0x0E : UInt8)] = bs at hs
  cases hs with
  | nil => cases hb
  | cons h _ =>
    cases h with
    | @mk b1 b2 size s _ _ _ =>
      simp only [List.cons_append, List.cons.injEq] at hb
      revert hb
      cases s <;> simp [sectionId, Section.kind]

/-- C21: a module behind which another custom section stands is a module. -/
example : ∃ r', decodeModule (Src.ofBytes ((preamble ++ bytesA) ++ secCustom)) =
    (.ok (assemble (secsA ++ [(5, .custom customA)])), r') :=
  (c18_bytes _ _).2 (by
    rw [List.append_assoc]
    exact .mk (BSeq.append bSecsA (seq1 bCustom))
      ⟨by decide, by decide, fun n h => by cases h; rfl, fun _ h => by cases h⟩)

/-- C22: the first custom section of the sample, left out. -/
example : ∃ m r', decodeModule (Src.ofBytes (preamble ++ ([] ++ bytesB))) = (.ok m, r') :=
  (c22_insert (s := Src.ofBytes (preamble ++ ([] ++ (secCustom ++ bytesB)))) .nil bCustom
    (avail_ofBytes _) (avail_ofBytes _) (fin_ofBytes _) (fin_ofBytes _)).2.2
    ⟨_, _, modA.choose_spec⟩

/-- C22: sections that differ in custom sections only. -/
example : SameNonCustom secsA (secsA.drop 1) ∧ SameNonCustom secsA
    [(4, .type [recA]), (2, .function [⟨0⟩]), (7, .global [globalA]), (1, .dataCount 1),
     (12, .code [codeA]), (4, .data [dataA])] := ⟨rfl, rfl⟩

/-- C24: one function declared, no code section. -/
example : ∃ r', decodeModule (Src.ofBytes (preamble ++ (secType ++ secFunction))) =
    (.err (.CodeFuncEntriesLenMismatch 0 1), r') :=
  c24_mismatch.2 (.inr ⟨[.type [recA], .function [⟨0⟩]], by
    rw [avail_ofBytes]
    exact AtEnd.mk (secs := [(4, .type [recA]), (2, .function [⟨0⟩])]) (.cons bType (seq1 bFunction))
      ⟨by decide, by simp [Section.kind], by simp [Section.kind]⟩,
    by rw [fin_ofBytes]; rfl, by simp [Section.kind], rfl, rfl, by decide⟩)

/-- C24: a code section without a function section. -/
example : ∃ r', decodeModule (Src.ofBytes (preamble ++ (secType ++ secCode))) =
    (.err (.CodeFuncEntriesLenMismatch 1 0), r') :=
  c24_mismatch.2 (.inl ⟨[.type [recA]], 12, _, [], [codeA], by
    rw [avail_ofBytes]
    exact AtSection.mk (bs := secType) (b1 := [0x0C]) (secs := [(4, .type [recA])]) (k := .Code)
      (rest := [0x01, 0x0A, 0x01, 0x02, 0x7F, 0x02, 0x40, 0xFC, 0x09, 0x00, 0x0B, 0x0B] ++ [])
      (seq1 bType) (acc1 (by decide) (by decide)) ((c07_u32 12 _).2 ⟨1, by decide⟩),
    by unfold MayFollow; decide, codeContents, by decide, rfl, rfl, by decide⟩)

/-- C27: two segments announced, one present. -/
example : ∃ r', decodeModule (Src.ofBytes (preamble ++ ([0x0C, 0x01, 0x02] ++ secData))) =
    (.err (.DataCountMismatch 1 2), r') :=
  c27_mismatch.2 ⟨[.dataCount 2], 4, [0x01, 0x01, 0x01, 0xFF], [], [dataA], by
    rw [avail_ofBytes]
    exact AtSection.mk (bs := [0x0C, 0x01, 0x02]) (b1 := [0x04]) (secs := [(1, .dataCount 2)])
      (k := .Data) (rest := [0x01, 0x01, 0x01, 0xFF] ++ [])
      (seq1 (.mk (b1 := [0x01]) (b2 := [0x02]) (s := .dataCount 2) ((c07_u32 1 _).2 ⟨1, by decide⟩)
        rfl (.dataCount ((c07_u32 2 [0x02]).2 ⟨1, by decide⟩))))
      (acc1 (by decide) (by decide)) ((c07_u32 4 _).2 ⟨1, by decide⟩),
    by unfold MayFollow; decide, .data bDatas, by decide, rfl, rfl, by decide⟩

/-- C27: one segment announced, no data section. -/
example : ∃ r', decodeModule (Src.ofBytes (preamble ++ secDataCount)) =
    (.err (.DataCountDatasLenMismatch 0 1), r') :=
  c27_missing.2 ⟨[.dataCount 1], by
    rw [avail_ofBytes]
    exact AtEnd.mk (secs := [(1, .dataCount 1)]) (seq1 bDataCount) (acc1 (by decide) (by decide)),
    by rw [fin_ofBytes]; rfl, rfl, by simp [Section.kind], rfl, by decide, rfl⟩

/-- C28: a data index in a nested block, data section but no data count section. -/
example : ∃ r', decodeModule (Src.ofBytes (preamble ++ (secType ++ (secFunction ++ (secCode ++ secData)))))
    = (.err .DataIndexWithoutDataCount, r') :=
  c28_reject.2 ⟨[.type [recA], .function [⟨0⟩], .code [codeA], .data [dataA]], by
    rw [avail_ofBytes]
    exact AtEnd.mk (secs := [(4, .type [recA]), (2, .function [⟨0⟩]), (12, .code [codeA]),
      (4, .data [dataA])]) (.cons bType (.cons bFunction (.cons bCode (seq1 bData))))
      ⟨by decide, fun _ => rfl, fun _ n h => by cases h⟩,
    by rw [fin_ofBytes]; rfl, rfl, usesA, rfl⟩

/-- C28: a data index in an initialiser needs no data count section. -/
example : ∃ m r', decodeModule (Src.ofBytes (preamble ++ secGlobal)) = (.ok m, r') ∧
    m.data_count = none ∧ ∃ g ∈ m.globals, ∃ i ∈ g.init, UsesData i := by
  obtain ⟨r', h⟩ := (c18_bytes (preamble ++ secGlobal) (assemble [(7, .global [globalA])])).2
    (.mk (seq1 bGlobal) ⟨by decide, rfl, fun n h => (by cases h), fun ⟨_, h, _⟩ => (by cases h)⟩)
  exact ⟨_, r', h, rfl, globalA, List.mem_singleton.2 rfl, _, List.mem_singleton.2 rfl, .dataDrop⟩

/-- C28: the sample has a body that uses a data index. -/
example : ∃ f ∈ (assemble secsA).funcs, ∃ i ∈ f.body, UsesData i :=
  ⟨_, List.mem_singleton.2 rfl, _, List.mem_singleton.2 rfl,
    .block (List.mem_singleton.2 rfl) .dataDrop⟩

/-- C39: version 2. -/
example : ∃ r', decodeModule (Src.ofBytes [0x00, 0x61, 0x73, 0x6D, 0x02, 0x00, 0x00, 0x00]) =
    (.err (.ParsePreamble (.Unexpected [0x00, 0x61, 0x73, 0x6D, 0x02, 0x00, 0x00, 0x00])), r') :=
  c39_unexpected (rest := []) (avail_ofBytes _) rfl (by decide)

/-- C39: seven bytes and a broken pipe. -/
example : ∃ r', decodeModule
    (⟨[.data [0x00, 0x61, 0x73, 0x6D, 0x01, 0x00, 0x00], .fail (.other 7)], []⟩ : Src) =
    (.err (.ParsePreamble (.Io (.other 7))), r') :=
  c39_short (by decide)

/-- C40: a start section of declared size 2 whose contents are one byte long. -/
example : ∃ r', decodeModule (Src.ofBytes (preamble ++ ([] ++ (0x08 :: ([0x02] ++ [0x00, 0x00]))))) =
    (.err (.SectionSizeMismatch .Start 2 1), r') :=
  c40_size.2 ⟨by decide, .inl ⟨[], [0x00], [0x00], .start ⟨0⟩, by
    rw [avail_ofBytes]
    exact AtSection.mk (bs := []) (b1 := [0x02]) (secs := []) (k := .Start) .nil
      ⟨by decide, by simp, by simp⟩ ((c07_u32 2 _).2 ⟨1, by decide⟩),
    by decide, rfl, .start ((c07_u32 0 [0x00]).2 ⟨1, by decide⟩),
    ⟨by decide, by simp [Section.kind], by simp [Section.kind]⟩, rfl⟩⟩

/-- C40: a custom section cut off by the end of the input. -/
example : ∃ r', decodeModule (Src.ofBytes (preamble ++ ([] ++ (0x00 :: ([0x09] ++ [0x01, 0x61, 0xAA]))))) =
    (.err (.SectionSizeMismatch .Custom 9 3), r') :=
  c40_size.2 ⟨by decide, .inr ⟨[], [0x01, 0x61, 0xAA], ⟨⟨[0x61]⟩, [0xAA]⟩, by
    rw [avail_ofBytes]
    exact AtSection.mk (bs := []) (b1 := [0x09]) (secs := []) (k := .Custom) .nil
      ⟨by decide, by simp, by simp⟩ ((c07_u32 9 _).2 ⟨1, by decide⟩),
    rfl, fin_ofBytes _, .mk (b := [0x01, 0x61]) (contents := [0xAA]) nameA, rfl⟩⟩

end Wadec
