import Verif.Proof.Brief
import Verif.Props.Cli
import Verif.Props.Sample

/-! C67: error reports are short, one line per cause. -/

namespace Wadec

open LawfulRead Spec

/-- C67: whatever the input and however deep the nesting, an error and its causes are at most nine
messages, and those of the `io::Error` (at most `k`) or one more. -/
theorem c67_count (e : DecodeModuleError) (io : IoError → List String) (k : Nat) (h1 : 1 ≤ k)
    (hk : ∀ x, (io x).length ≤ k) : (ErrText.chain io e).length ≤ 9 + k :=
  Brief.brief io k e h1 hk

/-- A type section with a group of one type, a structure of one field, that breaks off in the
reference type of the field. -/
def nineCauses : Bytes := preamble ++ [0x01, 0x06, 0x01, 0x4E, 0x01, 0x5F, 0x01, 0x63]

/-- C67: nine messages and those of an `io::Error` do occur. -/
theorem c67_tight (io : IoError → List String) :
    ∃ e r', decodeModule (Src.ofBytes nineCauses) = (.err e, r') ∧
      (ErrText.chain io e).length = 9 + (io .unexpectedEof).length := by
  refine ⟨_, _, rfl, ?_⟩
  simp [ErrText.chain]
  omega

/-- C67: every message is one line (if those of `io::Error`s are), except the one about a wrong
preamble. -/
theorem c67_line (e : DecodeModuleError) (io : IoError → List String) (h : ∀ x, ∀ s ∈ io x, OneLine s)
    (hn : ∀ b, e ≠ .ParsePreamble (.Unexpected b)) : ∀ s ∈ ErrText.chain io e, OneLine s :=
  module_lined io e h hn

theorem lines_cons {a b : List Char} (h : '\n' ∉ a) : lines (a ++ '\n' :: b) = a :: lines b := by
  induction a with
  | nil => simp [lines]
  | cons c a ih =>
    simp only [List.mem_cons, not_or] at h
    simp only [List.cons_append, lines, if_neg (Ne.symm h.1), ih h.2]

theorem lines_causes : ∀ (l : List (String × Nat)), (∀ c ∈ l, OneLine c.1) →
    lines ((l.map fun (c, i) => "    " ++ toString i ++ ": " ++ c ++ "\n").flatMap String.toList) =
      l.map fun (c, i) => ("    " ++ toString i ++ ": " ++ c).toList
  | [], _ => rfl
  | (c, i) :: l, h => by
    have hf : NoBreak ("    " ++ toString i ++ ": " ++ c) :=
      NoBreak.append (NoBreak.append (NoBreak.append (.lit [' ', ' ', ' ', ' '] rfl) (.nat i)) (.lit [':', ' '] rfl))
        (h (c, i) (by simp)).2
    have e : ("    " ++ toString i ++ ": " ++ c ++ "\n").toList = ("    " ++ toString i ++ ": " ++ c).toList ++ ['\n'] := by
      simp
    simp only [List.map_cons, List.flatMap_cons, e, List.append_assoc, List.singleton_append]
    rw [lines_cons hf, lines_causes l fun c hc => h c (by simp [hc])]

/-- What the lines of a report are. -/
def Spec.reportLines (err : String) (causes : List String) : List (List Char) :=
  ("ERROR: " ++ err).toList ::
    (if causes = [] then [] else
      [] :: "Caused by:".toList :: causes.zipIdx.map fun (c, i) => ("    " ++ toString i ++ ": " ++ c).toList)

theorem lines_report {err : String} {causes : List String} {debug : String} (he : OneLine err)
    (hc : ∀ c ∈ causes, OneLine c) : lines (Spec.report false err causes debug).toList = Spec.reportLines err causes := by
  have e1 : ("ERROR: " ++ err ++ "\n").toList = ("ERROR: " ++ err).toList ++ ['\n'] := by simp
  have e2 : ("\nCaused by:\n").toList = [] ++ '\n' :: ("Caused by:".toList ++ ['\n']) := by simp
  have hf : NoBreak ("ERROR: " ++ err) := NoBreak.append (.lit ['E', 'R', 'R', 'O', 'R', ':', ' '] rfl) he.2
  have hb : '\n' ∉ "Caused by:".toList := by simp
  have hz : ∀ c ∈ causes.zipIdx, OneLine c.1 := fun c h => hc c.1 (by
    have := List.mem_map_of_mem (f := Prod.fst) h
    rwa [List.zipIdx_map_fst] at this)
  simp only [Spec.report, Spec.reportLines, toList_join, List.flatMap_append, List.flatMap_cons, List.flatMap_nil,
    List.append_nil, e1, List.append_assoc, List.singleton_append, Bool.false_eq_true, if_false]
  rw [lines_cons hf]
  congr 1
  by_cases h0 : causes = []
  · simp [h0, lines]
  · simp only [if_neg h0, List.flatMap_cons, List.singleton_append, e2, List.append_assoc, List.cons_append]
    rw [lines_cons (by simp), lines_cons hb]
    exact congrArg (fun l => [] :: "Caused by:".toList :: l) (lines_causes _ hz)

section
variable {R : Type} [LawfulRead R]

/-- C67: when decoding fails, the tool writes (without `--verbose`) one line for the error and, after
a blank line and a heading, one numbered line for each of its causes. -/
theorem c67_report (t : CliText) {r r' : R} {e : DecodeModuleError} (h : decodeModule r = (.err e, r'))
    (hio : ∀ x, t.io x ≠ [] ∧ ∀ s ∈ t.io x, OneLine s) (hn : ∀ b, e ≠ .ParsePreamble (.Unexpected b)) :
    ∃ err causes, ErrText.chain t.io e = err :: causes ∧
      lines (cliMain t false (.ok r)).stderr.toList = Spec.reportLines err causes := by
  have hl := c67_line e t.io (fun x => (hio x).2) hn
  have hne : ErrText.chain t.io e ≠ [] := LawfulText.ne_nil e _ fun x => (hio x).1
  obtain ⟨err, causes, hc⟩ := List.exists_cons_of_ne_nil hne
  refine ⟨err, causes, hc, ?_⟩
  rw [hc] at hl
  have hm : cliMain t false (.ok r) = abort false (err :: causes) (t.debugErr e) := by
    simp only [cliMain, h, hc]
  rw [hm, abort_report]
  exact lines_report (hl err (by simp)) fun c h => hl c (by simp [h])

/-- C67: hence at most `11 + k` lines, `k` being the number of messages of an `io::Error`. -/
theorem c67_report_length (t : CliText) {r r' : R} {e : DecodeModuleError} (h : decodeModule r = (.err e, r'))
    (hio : ∀ x, t.io x ≠ [] ∧ ∀ s ∈ t.io x, OneLine s) (hn : ∀ b, e ≠ .ParsePreamble (.Unexpected b)) {k : Nat}
    (h1 : 1 ≤ k) (hk : ∀ x, (t.io x).length ≤ k) :
    (lines (cliMain t false (.ok r)).stderr.toList).length ≤ 11 + k := by
  obtain ⟨err, causes, hc, hl⟩ := c67_report t h hio hn
  have := c67_count e t.io k h1 hk
  rw [hc] at this
  rw [hl, Spec.reportLines]
  split <;> simp at this ⊢ <;> omega

theorem zipIdx_lines_inj {a b : List String} {i : Nat}
    (h : (a.zipIdx i).map (fun (c, i) => ("    " ++ toString i ++ ": " ++ c).toList) =
      (b.zipIdx i).map fun (c, i) => ("    " ++ toString i ++ ": " ++ c).toList) : a = b := by
  induction a generalizing b i with
  | nil => cases b with
    | nil => rfl
    | cons => simp at h
  | cons x a ih => cases b with
    | nil => simp at h
    | cons y b =>
      simp only [List.zipIdx_cons, List.map_cons, List.cons.injEq, String.toList_append, List.append_cancel_left_eq] at h
      rw [String.toList_inj.1 h.1, ih (by simpa only [String.toList_append] using h.2)]

/-- C67: and the messages can be read off the report: two failing runs that write the same have the
same messages. -/
theorem c67_recover (t t' : CliText) {S : Type} [LawfulRead S] {r r' : R} {s s' : S} {e e' : DecodeModuleError}
    (h : decodeModule r = (.err e, r')) (h' : decodeModule s = (.err e', s'))
    (hio : ∀ x, t.io x ≠ [] ∧ ∀ s ∈ t.io x, OneLine s) (hio' : ∀ x, t'.io x ≠ [] ∧ ∀ s ∈ t'.io x, OneLine s)
    (hn : ∀ b, e ≠ .ParsePreamble (.Unexpected b)) (hn' : ∀ b, e' ≠ .ParsePreamble (.Unexpected b))
    (heq : (cliMain t false (.ok r)).stderr = (cliMain t' false (.ok s)).stderr) :
    ErrText.chain t.io e = ErrText.chain t'.io e' := by
  obtain ⟨a, as, h1, h2⟩ := c67_report t h hio hn
  obtain ⟨b, bs, h3, h4⟩ := c67_report t' h' hio' hn'
  rw [heq, h4, Spec.reportLines, Spec.reportLines] at h2
  simp only [List.cons.injEq, String.toList_append, List.append_cancel_left_eq] at h2
  rw [h1, h3, String.toList_inj.1 h2.1]
  congr 1
  have h5 := h2.2
  by_cases ha : as = [] <;> by_cases hb : bs = []
  · rw [ha, hb]
  · simp [ha, hb] at h5
  · simp [ha, hb] at h5
  · rw [if_neg ha, if_neg hb, List.cons.injEq, List.cons.injEq] at h5
    exact (zipIdx_lines_inj (i := 0) (by simpa only [String.toList_append] using h5.2.2)).symm

end

theorem lines_rows (t : List Char) : ∀ b : Bytes,
    lines (b.flatMap (fun b => "    0x".toList ++ (upperHex b.toNat).toList ++ ",\n".toList) ++ t) =
      b.map (fun b => "    0x".toList ++ (upperHex b.toNat).toList ++ [',']) ++ lines t
  | [] => rfl
  | x :: b => by
    have hf : '\n' ∉ "    0x".toList ++ (upperHex x.toNat).toList ++ [','] := by
      have := NoBreak.upperHex x.toNat
      unfold NoBreak at this
      simp [this]
    have e : "    0x".toList ++ (upperHex x.toNat).toList ++ ",\n".toList =
        ("    0x".toList ++ (upperHex x.toNat).toList ++ [',']) ++ ['\n'] := by simp
    simp only [List.flatMap_cons, List.map_cons, List.cons_append, e]
    rw [List.append_assoc, List.append_assoc _ ['\n'], List.singleton_append, lines_cons hf, lines_rows t b]

theorem toList_hexArray {b : Bytes} (hb : b ≠ []) : (hexArray b).toList =
    '[' :: '\n' :: (b.flatMap (fun b => "    0x".toList ++ (upperHex b.toNat).toList ++ ",\n".toList) ++ [']']) := by
  cases b with
  | nil => exact absurd rfl hb
  | cons x b =>
    simp only [hexArray, List.isEmpty_cons, Bool.false_eq_true, if_false, String.toList_append, toList_join,
      List.flatMap_map]
    simp

/-- C67: the message about a wrong preamble takes 19 lines: a heading, eight bytes, another heading,
eight bytes, and a closing bracket. -/
theorem c67_preamble (b : Bytes) (hb : b.length = 8) (io : IoError → List String) :
    ∃ s, ErrText.chain io (DecodeModuleError.ParsePreamble (.Unexpected b)) = [s] ∧ (lines s.toList).length = 19 := by
  refine ⟨_, rfl, ?_⟩
  have hne : b ≠ [] := fun h => by simp [h] at hb
  simp only [String.toList_append, toList_hexArray hne, toList_hexArray (show EXPECTED_PREAMBLE ≠ [] by decide)]
  have e1 : ∀ t, "unexpected preamble: expected ".toList ++ '[' :: '\n' :: t =
      ("unexpected preamble: expected ".toList ++ ['[']) ++ '\n' :: t := by simp
  have e2 : ∀ t : List Char, [']'] ++ ("; got ".toList ++ '[' :: '\n' :: t) =
      ([']'] ++ "; got ".toList ++ ['[']) ++ '\n' :: t := by simp
  rw [e1, List.append_assoc, List.append_assoc, List.cons_append, lines_cons (by simp), List.append_assoc, lines_rows, e2,
    lines_cons (by simp), lines_rows]
  simp [lines, hb]
  rfl

/-- The error of `nineCauses` and its causes, with the message std gives the `io::Error`. -/
example : ∃ e r', decodeModule (Src.ofBytes nineCauses) = (.err e, r') ∧
    ErrText.chain (fun _ => ["failed to fill whole buffer"]) e = [
      "failed decoding Type section",
      "failed parsing vector element at position 0",
      "failed decoding subtypes list",
      "failed parsing vector element at position 0",
      "failed decoding recursive subtype",
      "failed decoding Field type list",
      "failed parsing vector element at position 0",
      "failed decoding as either PackType or ValType with marker byte 0x63",
      "failed reading Heap type marker byte",
      "failed to fill whole buffer"] := by
  refine ⟨_, _, rfl, ?_⟩
  simp [ErrText.chain]
  decide +kernel

/-- The assumptions about `io::Error`s can be met. -/
example : ∀ x : IoError, (fun _ => ["failed to fill whole buffer"] : IoError → List String) x ≠ [] ∧
    ∀ s ∈ (fun _ => ["failed to fill whole buffer"] : IoError → List String) x, OneLine s := by
  intro x
  refine ⟨by simp, fun s hs => ?_⟩
  rw [List.mem_singleton.1 hs]
  unfold OneLine
  simp

end Wadec
