import Verif.Proof.Sane
import Verif.Props.Length
import Verif.Props.Fault
import Verif.Props.Lines

/-! C79: how long the report of an error is. -/

namespace Wadec

open LawfulRead Spec

variable {R : Type} [LawfulRead R] {T : StdText} {io : IoError → List String} {k q u : Nat}

/-! ### The report -/

theorem causes_length : ∀ (cs : List String) (i : Nat), i + cs.length ≤ 100 →
    (causeLines cs i).length ≤ total String.length cs + 9 * cs.length
  | [], _, _ => Nat.le_refl _
  | c :: cs, i, h => by
    rw [List.length_cons] at h
    have ih := causes_length cs (i + 1) (by omega)
    have h1 : (toString i).length ≤ 2 := by
      rw [← String.length_toList]; exact natText_length (k := 1) (by omega)
    have e1 : "    ".length = 4 := rfl
    have e2 : ": ".length = 2 := rfl
    have e3 : "\n".length = 1 := rfl
    simp only [causeLines, String.length_append, total, List.length_cons, e1, e2, e3]
    omega

theorem report_length {v : Bool} {chain : List String} {debug : String} (h : chain.length ≤ 100) :
    (abort v chain debug).stderr.length ≤ 20 + total String.length chain + 9 * (chain.length - 1) +
      if v then 16 + debug.length else 0 := by
  cases chain with
  | nil => exact Nat.zero_le _
  | cons err sources =>
    have h1 := causes_length sources 0 (by rw [List.length_cons] at h; omega)
    have e1 : "ERROR: ".length = 7 := rfl
    have e2 : "\n".length = 1 := rfl
    have e3 : "\nCaused by:\n".length = 12 := rfl
    have e4 : "\nDEBUG OUTPUT:\n".length = 15 := rfl
    have e5 : "".length = 0 := rfl
    cases v <;> cases sources <;>
      simp only [abort, String.length_append, total, List.length_cons, List.length_nil, List.isEmpty_nil, List.isEmpty_cons, e1, e2, e3, e4, e5,
        Bool.false_eq_true, if_true, if_false] at h1 ⊢ <;> omega

/-- what the report of a returned error consists of -/
theorem error_report {v : Bool} (hio : IoWithin k q io) (hk : k ≤ 90) {r r' : R} {e : DecodeModuleError}
    (h : decodeModule r = (.err e, r')) : (cliMain (CliText.std T io) v (.ok r)).stderr.length ≤
      960 + q + 9 * k + if v then 16 + (dbg T e).pretty.length else 0 := by
  have h1 : 1 ≤ k := Nat.le_trans (List.length_pos_iff.2 (hio .unexpectedEof).1) (hio .unexpectedEof).2.1
  have hc := c67_count e io k h1 fun x => (hio x).2.1
  have hq := Curt.curt io q (nameLength e) e (fun x => (hio x).2.2) (module_sane ((c55_module r e).1 ⟨r', h⟩))
  have ho : Curt.own DecodeModuleError = 866 := rfl
  have he : (cliMain (CliText.std T io) v (.ok r)).stderr = (abort v (ErrText.chain io e) (String.ofList (dbg T e).pretty)).stderr := by
    simp only [cliMain, h]; rfl
  have hr := report_length (v := v) (debug := String.ofList (dbg T e).pretty) (Nat.le_trans hc (by omega))
  rw [he]
  rw [charsIn] at hq
  rw [String.length_ofList] at hr
  generalize (if v = true then 16 + (dbg T e).pretty.length else 0) = d at hr ⊢
  omega

/-- C79: without `--verbose` the report is short, whatever the input: a constant number of characters, and those of the messages of an
`io::Error`. -/
theorem c79_plain (hio : IoWithin k q io) (hk : k ≤ 90) (input : Except IoError R) :
    (cliMain (CliText.std T io) false input).stderr.length ≤ 960 + q + 9 * k := by
  rcases cli_cases (CliText.std T io) false input with ⟨m, h⟩ | ⟨x, rfl, h⟩ | ⟨r, e, r', rfl, h, -⟩
  · rw [cli_ok h]; exact Nat.zero_le _
  · have hx := hio x
    have hr := report_length (v := false) (chain := io x) (debug := String.ofList (dbg T x).pretty) (by omega)
    rw [h]
    refine Nat.le_trans hr ?_
    simp only [Bool.false_eq_true, if_false]
    omega
  · have := error_report (T := T) (v := false) hio hk h
    simpa using this

/-- C79: with `--verbose` the report of a returned error is longer by a constant, by its `io::Error`, and by 65 times the length of the
name that is not UTF-8, if that is the error. -/
theorem c79_verbose (hio : IoWithin k q io) (hk : k ≤ 90) (hu : ∀ x, (T.io x).pretty.length ≤ u) {r r' : R}
    {e : DecodeModuleError} (h : decodeModule r = (.err e, r')) :
    (cliMain (CliText.std T io) true (.ok r)).stderr.length ≤ 2600 + q + 9 * k + 57 * u + 65 * nameLength e := by
  have h1 := error_report (T := T) (v := true) hio hk h
  have h2 := (Terse.terse T u (nameLength e) e hu (module_sane ((c55_module r e).1 ⟨r', h⟩))).1
  have e1 : Terse.a DecodeModuleError = 1603 := rfl
  have e2 : Terse.d DecodeModuleError = 14 := rfl
  rw [e1, e2] at h2
  simp only [if_true] at h1
  omega

theorem vec_length {b v : Bytes} (h : BByteVec b v) : v.length ≤ b.length := by
  cases h with
  | mk _ hs => rw [hs.bytes, List.length_append]; omega
theorem utf8_bytes {v : Bytes} {e : FromUtf8Error} (h : FUtf8 v e) : e.bytes = v := by cases h <;> rfl

theorem name_length {x : End} {b : Bytes} {e : FromUtf8Error} (h : FName x b (.Utf8 e)) : e.bytes.length ≤ b.length := by
  cases h with
  | utf8 hv hu => have := vec_length hv; rw [utf8_bytes hu, List.length_append]; omega

theorem contents_name {x : End} {s : SectionKind} {b : Bytes} {e : DecodeModuleError} (h : FContents x s b e) :
    nameLength e ≤ b.length := by
  cases h with
  | customName h =>
    cases h with
    | bytes _ => exact Nat.zero_le _
    | utf8 hv hu => exact name_length (.utf8 (x := x) hv hu)
  | «import» h =>
    cases h with
    | length _ => exact Nat.zero_le _
    | element _ _ _ _ h =>
      simp only [List.length_append]
      cases h with
      | «module» h =>
        cases h with
        | bytes _ => exact Nat.zero_le _
        | utf8 hv hu => have := name_length (.utf8 (x := x) (t := ‹Bytes›) hv hu); simp only [nameLength, badName, Option.getD_some]; omega
      | item _ h =>
        cases h with
        | bytes _ => exact Nat.zero_le _
        | utf8 hv hu =>
          have := vec_length hv
          simp only [nameLength, badName, Option.getD_some, utf8_bytes hu, List.length_append]; omega
      | type => exact Nat.zero_le _
  | «export» h =>
    cases h with
    | length _ => exact Nat.zero_le _
    | element _ _ _ _ h =>
      simp only [List.length_append]
      cases h with
      | name h =>
        cases h with
        | bytes _ => exact Nat.zero_le _
        | utf8 hv hu =>
          have := vec_length hv
          simp only [nameLength, badName, Option.getD_some, utf8_bytes hu, List.length_append]; omega
      | _ => exact Nat.zero_le _
  | _ => exact Nat.zero_le _

/-- C79: that name is a part of the input. -/
theorem c79_name {r r' : R} {e : DecodeModuleError} (h : decodeModule r = (.err e, r')) : nameLength e ≤ (avail r).length := by
  have hf := (c55_module r e).1 ⟨r', h⟩
  generalize avail r = b at hf ⊢
  cases hf with
  | contents ha _ hc =>
    have h1 := contents_name hc
    cases ha
    simp only [List.length_append, List.length_cons, List.length_take] at h1 ⊢
    omega
  | _ => exact Nat.zero_le _

/-- C79: so the report is at most linear in the input. -/
theorem c79_linear (hio : IoWithin k q io) (hk : k ≤ 90) (hu : ∀ x, (T.io x).pretty.length ≤ u) (r : R) :
    (cliMain (CliText.std T io) true (.ok r)).stderr.length ≤ 2600 + q + 9 * k + 57 * u + 65 * (avail r).length := by
  rcases cli_cases (CliText.std T io) true (.ok r) with ⟨m, h⟩ | ⟨x, h, -⟩ | ⟨r1, e, r', h1, h, -⟩
  · rw [cli_ok h]; exact Nat.zero_le _
  · cases h
  · cases h1
    have h2 := c79_name h
    have h3 := c79_verbose hio hk hu h
    omega

/-! ### The other direction -/

/-- at least `c` characters and one line for each of `n` bytes -/
def Weighs (c n : Nat) (x : Dbg) : Prop := c * n ≤ x.pretty.length ∧ n ≤ breaks x.pretty

theorem Weighs.more {c n : Nat} {x y : Dbg} (h : Weighs c n x)
    (hy : x.pretty.length + 4 * breaks x.pretty ≤ y.pretty.length ∧ breaks x.pretty ≤ breaks y.pretty) : Weighs (c + 4) n y := by
  obtain ⟨h1, h2⟩ := h
  refine ⟨?_, Nat.le_trans h2 hy.2⟩
  rw [Nat.add_mul]
  omega
theorem Weighs.tuple {c n : Nat} {s : String} {x : Dbg} (h : Weighs c n x) : Weighs (c + 4) n (.tuple s [x]) := by
  have := tuple_hold (n := s) (List.mem_singleton.2 (rfl : x = x))
  exact h.more (by omega)
theorem Weighs.struct {c n : Nat} {s f : String} {x : Dbg} {fs : List (String × Dbg)} (h : Weighs c n x) (hx : (f, x) ∈ fs) :
    Weighs (c + 4) n (.struct s fs) := by
  have := struct_hold (n := s) hx
  exact h.more (by omega)
theorem Weighs.le {c c' n : Nat} {x : Dbg} (h : Weighs c n x) (hc : c' ≤ c) : Weighs c' n x :=
  ⟨Nat.le_trans (Nat.mul_le_mul_right _ hc) h.1, h.2⟩

theorem weighs_items (T : StdText) : ∀ bs : Bytes, 7 * bs.length ≤ (prettyItems (bs.map (dbg T))).length ∧
    bs.length ≤ breaks (prettyItems (bs.map (dbg T)))
  | [] => ⟨Nat.zero_le _, Nat.zero_le _⟩
  | b :: bs => by
    have ih := weighs_items T bs
    have h1 : 1 ≤ (dbg T b).pretty.length := by
      show 1 ≤ (toString b.toNat).toList.length
      rw [Nat.toString_eq_repr, Nat.repr, String.toList_ofList]
      exact Nat.length_toDigits_pos
    simp only [List.map_cons, prettyItems, List.length_append, part_length, breaks_append, part_breaks, List.length_cons]
    omega

theorem weighs_bytes (T : StdText) (bs : Bytes) : Weighs 7 bs.length (dbg T bs) := by
  cases bs with
  | nil => exact ⟨Nat.zero_le _, Nat.zero_le _⟩
  | cons b bs =>
    have := weighs_items T (b :: bs)
    show Weighs 7 (b :: bs).length (.list ((b :: bs).map (dbg T)))
    unfold Weighs
    rw [list_key (by simp)]
    simp only [List.length_append, List.length_cons, breaks_append, breaks, if_true] at this ⊢
    omega

theorem weighs_utf8 (T : StdText) (e : FromUtf8Error) : Weighs 15 e.bytes.length (dbg T (DecodeNameError.Utf8 e)) :=
  ((weighs_bytes T e.bytes).struct (s := "FromUtf8Error") (.head _)).tuple

theorem Weighs.path {c n : Nat} {s : String} {x : Dbg} (h : Weighs c n x) : Weighs c n (.path s x) := by
  unfold Weighs at *
  simp only [Dbg.pretty, List.length_append, List.length_cons, breaks_append, breaks] at *
  omega

theorem weighs_element {E : Type} [Debug E] [TypeName E] {c n : Nat} (i : UInt32) {e : E} (h : Weighs c n (dbg T e)) :
    Weighs (c + 4) n (dbg T (DecodeListError.ParseElement i e)) :=
  (h.path (s := typeName E)).struct (s := "ParseElement") (.tail _ (.head _))

theorem weighs_import {n : Nat} (i : UInt32) {e : DecodeImportError} (h : Weighs 19 n (dbg T e)) :
    Weighs 31 n (dbg T (DecodeModuleError.DecodeImportSection (.DecodeList (.ParseElement i e)))) :=
  ((weighs_element i h).tuple (s := "DecodeList")).tuple (s := "DecodeImportSection")

theorem weighs_name (T : StdText) (e : DecodeModuleError) : Weighs 23 (nameLength e) (dbg T e) := by
  unfold nameLength
  generalize hb : badName e = o
  cases o with
  | none => exact ⟨Nat.zero_le _, Nat.zero_le _⟩
  | some b =>
    unfold badName at hb
    split at hb
    · rename_i e
      obtain rfl := Option.some.inj hb
      have := ((weighs_utf8 T e).tuple (s := "DecodeName")).tuple (s := "DecodeCustomSection")
      exact this
    · rename_i i e
      obtain rfl := Option.some.inj hb
      have := weighs_import i (e := .DecodeModuleName (.Utf8 e)) ((weighs_utf8 T e).tuple (s := "DecodeModuleName"))
      exact this.le (by decide)
    · rename_i i e
      obtain rfl := Option.some.inj hb
      have := weighs_import i (e := .DecodeItemName (.Utf8 e)) ((weighs_utf8 T e).tuple (s := "DecodeItemName"))
      exact this.le (by decide)
    · rename_i i e
      obtain rfl := Option.some.inj hb
      have := weighs_element i (e := DecodeExportError.DecodeName (.Utf8 e)) ((weighs_utf8 T e).tuple (s := "DecodeName"))
      exact ((this.tuple (s := "DecodeList")).tuple (s := "DecodeExportSection")).le (by decide)
    · exact absurd hb (by simp)

/-- C79: the name is there: each of its bytes is worth 23 characters of the verbose report at least. -/
theorem c79_long (hio : ∀ x, io x ≠ []) {r r' : R} {e : DecodeModuleError} (h : decodeModule r = (.err e, r')) :
    (cliMain (CliText.std T io) false (.ok r)).stderr.length + 23 * nameLength e ≤
      (cliMain (CliText.std T io) true (.ok r)).stderr.length := by
  have hn := LawfulText.ne_nil e io hio
  have hw := (weighs_name T e).1
  simp only [cliMain, h]
  show (abort false (ErrText.chain io e) (String.ofList (dbg T e).pretty)).stderr.length + _ ≤
    (abort true (ErrText.chain io e) (String.ofList (dbg T e).pretty)).stderr.length
  generalize ErrText.chain io e = c at hn ⊢
  cases c with
  | nil => exact absurd rfl hn
  | cons err sources =>
    have e1 : "".length = 0 := rfl
    simp only [abort, String.length_append, if_true, Bool.false_eq_true, if_false, String.length_ofList, e1]
    omega

/-- A module that has a custom section whose name is `n` bytes 0xFF. -/
def badlyNamed (n : Nat) : Bytes := preamble ++ (0x00 :: (uEnc 5 (n + 5) ++ (uEnc 5 n ++ List.replicate n 0xFF)))

theorem no_ff (c : Char) : ∃ b t, utf8Char c = b :: t ∧ b ≠ 0xFF := by
  have hc := c.valid
  unfold utf8Char
  simp only
  have hv : c.val.toNat < 0x110000 := by
    rcases hc with h | h
    · exact Nat.lt_trans h (by decide)
    · exact h.2
  generalize c.val.toNat = n at hv
  have key : ∀ m, m < 255 → UInt8.ofNat m ≠ 0xFF := fun m hm he => by
    have := congrArg UInt8.toNat he
    rw [UInt8.toNat_ofNat_of_lt' (show m < 256 by omega)] at this
    have e : (0xFF : UInt8).toNat = 255 := rfl
    omega
  split
  · exact ⟨_, _, rfl, key _ (by omega)⟩
  split
  · exact ⟨_, _, rfl, key _ (by omega)⟩
  split
  · exact ⟨_, _, rfl, key _ (by omega)⟩
  · exact ⟨_, _, rfl, key _ (by omega)⟩

theorem ff_utf8 (n : Nat) : FUtf8 (List.replicate (n + 1) 0xFF) ⟨List.replicate (n + 1) 0xFF, 0, some 1⟩ := by
  have hp : ValidUtf8 [] := ⟨[], rfl⟩
  refine FUtf8.invalid (p := []) (q := List.replicate (n + 1) 0xFF) (n := 1) hp (Nat.le_refl _) (by simp) ?_ (.inl rfl) ?_
  · rintro c ⟨t, ht⟩
    obtain ⟨b, u, hb, hne⟩ := no_ff c
    rw [hb, List.replicate_succ, List.cons_append] at ht
    exact hne (List.cons.inj ht).1
  · rintro c ⟨t, ht⟩
    obtain ⟨b, u, hb, hne⟩ := no_ff c
    rw [hb, List.replicate_succ, List.take_succ_cons, List.cons_append] at ht
    exact hne (List.cons.inj ht).1.symm

theorem badly_decode {n : Nat} (h0 : 0 < n) (hn : n + 5 < 2 ^ 32) :
    ∃ e r', decodeModule (Src.ofBytes (badlyNamed n)) = (.err e, r') ∧ badName e = some (List.replicate n 0xFF) := by
  obtain ⟨m, rfl⟩ : ∃ m, n = m + 1 := ⟨n - 1, by omega⟩
  refine ⟨.DecodeCustomSection (.DecodeName (.Utf8 ⟨List.replicate (m + 1) 0xFF, 0, some 1⟩)), ?_⟩
  have key : FModule .eof (badlyNamed (m + 1))
      (.DecodeCustomSection (.DecodeName (.Utf8 ⟨List.replicate (m + 1) 0xFF, 0, some 1⟩))) := by
    have h5 := five (UInt32.ofNat (m + 1 + 5))
    have h6 := five (UInt32.ofNat (m + 1))
    rw [UInt32.toNat_ofNat_of_lt' hn] at h5
    have h1 : BU 32 (uEnc 5 (m + 1)) (m + 1) := by
      have h7 : BU 32 (uEnc 5 (UInt32.ofNat (m + 1)).toNat) (UInt32.ofNat (m + 1)).toNat := h6
      rwa [UInt32.toNat_ofNat_of_lt' (show m + 1 < 4294967296 by omega)] at h7
    have ha := AtSection.mk (bs := []) (secs := []) (k := .Custom) (rest := uEnc 5 (m + 1) ++ List.replicate (m + 1) 0xFF) .nil
      ⟨List.nil_sublist _, fun ⟨s, hs, _⟩ => by simp at hs, fun ⟨s, hs, _⟩ => by simp at hs⟩ h5
    refine FModule.contents (n := UInt32.ofNat (m + 1 + 5)) (c := uEnc 5 (m + 1) ++ List.replicate (m + 1) 0xFF) (k := .Custom) (s := [])
      ha (List.nil_sublist _) (.customName ?_)
    rw [UInt32.toNat_ofNat_of_lt' hn, List.take_of_length_le (by simp [uEnc])]
    have hv : BByteVec (uEnc 5 (m + 1) ++ List.replicate (m + 1) 0xFF) (List.replicate (m + 1) 0xFF) :=
      .mk (by rwa [List.length_replicate]) (BSeq.ofBytes _)
    have := FName.utf8 (x := limitEnd (m + 1 + 5) (uEnc 5 (m + 1) ++ List.replicate (m + 1) 0xFF) .eof) (t := []) hv (ff_utf8 m)
    rwa [List.append_nil] at this
  obtain ⟨r', h⟩ := (c55_bytes _ _).2 key
  exact ⟨r', h, rfl⟩

/-- C79: so the verbose report does grow with the input: there are inputs of `n + 19` bytes with reports of more than `23 n`
characters. -/
theorem c79_grows (T : StdText) (hio : ∀ x, io x ≠ []) {n : Nat} (h0 : 0 < n) (hn : n + 5 < 2 ^ 32) :
    (badlyNamed n).length = n + 19 ∧ 23 * n ≤ (cliMain (CliText.std T io) true (.ok (Src.ofBytes (badlyNamed n)))).stderr.length := by
  refine ⟨by simp [badlyNamed, preamble, uEnc], ?_⟩
  obtain ⟨e, r', h, hb⟩ := badly_decode h0 hn
  have := c79_long (T := T) hio h
  have hl : nameLength e = n := by simp [nameLength, hb]
  omega

/-! ### Cases -/

/-- texts of `io::Error`s -/
def ioSample : IoError → List String := fun _ => ["broken"]

theorem ioSample_within : IoWithin 1 6 ioSample := fun _ => ⟨by simp [ioSample], Nat.le_refl _, show total String.length ["broken"] ≤ 6 by decide +kernel⟩

/-- A name of a million bytes: the report has less than a thousand characters, with `--verbose` at least 23 million. -/
example (T : StdText) : (cliMain (CliText.std T ioSample) false (.ok (Src.ofBytes (badlyNamed 1000000)))).stderr.length ≤ 975 ∧
    23000000 ≤ (cliMain (CliText.std T ioSample) true (.ok (Src.ofBytes (badlyNamed 1000000)))).stderr.length :=
  ⟨c79_plain ioSample_within (by decide) _, And.right (c79_grows T (n := 1000000) (fun x => (ioSample_within x).1) (by decide) (by decide))⟩
/-- A short name, from above and below. -/
example : 230 ≤ (cliMain (CliText.std { stdSample with io := fun _ => .word "Broken" } ioSample) true
      (.ok (Src.ofBytes (badlyNamed 10)))).stderr.length ∧
    (cliMain (CliText.std { stdSample with io := fun _ => .word "Broken" } ioSample) true
      (.ok (Src.ofBytes (badlyNamed 10)))).stderr.length ≤ 3607 := by
  obtain ⟨e, r', h, hb⟩ := badly_decode (n := 10) (by decide) (by decide)
  have hl : nameLength e = 10 := by rw [nameLength, hb, Option.getD_some, List.length_replicate]
  have h1 := c79_verbose (T := { stdSample with io := fun _ => .word "Broken" }) (u := 6) ioSample_within (by decide)
    (fun _ => Nat.le_refl 6) h
  rw [hl] at h1
  have h2 := (c79_grows { stdSample with io := fun _ => .word "Broken" } (n := 10) (fun x => (ioSample_within x).1) (by decide)
    (by decide)).2
  exact ⟨h2, h1⟩
example : ∃ e r', decodeModule (Src.ofBytes (badlyNamed 1000000)) = (.err e, r') ∧ nameLength e = 1000000 := by
  obtain ⟨e, r', h, hb⟩ := badly_decode (n := 1000000) (by decide) (by decide)
  exact ⟨e, r', h, by rw [nameLength, hb, Option.getD_some, List.length_replicate]⟩

end Wadec
