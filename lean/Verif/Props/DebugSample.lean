import Verif.Props.Debug
import Verif.Props.Sample

/-! Cases in which the hypotheses of the theorems of Verif/Props/Debug.lean hold, and texts. -/

namespace Wadec

open Spec LawfulRead

/-- A lawful stand-in for the texts of the standard library: floating-point numbers are written as their bits,
control characters are not printable. -/
def stdSample : StdText where
  f32 x := if IsNaN32 x then "NaN" else toString x.toNat
  f64 x := if IsNaN64 x then "NaN" else toString x.toNat
  hidden c := c.toNat < 32 || c.toNat == 127
  io
    | .interrupted => .tuple "Kind" [.word "Interrupted"]
    | .unexpectedEof => .struct "Error" [("kind", .word "UnexpectedEof"), ("message", .str "failed to fill whole buffer")]
    | .other n => .struct "Os" [("code", .word (toString n))]

theorem nat_ne_nan (n : Nat) : toString n ≠ "NaN" := by
  intro h
  have e := congrArg String.toList h
  simp at e
  have : 'N' ∈ Nat.toDigits 10 n := by rw [e]; simp
  have hd : ∀ {n : Nat} {c : Char}, c ∈ Nat.toDigits 10 n → c.isDigit = true := by
    intro n c hc
    induction n using Nat.strongRecOn with
    | _ n ih =>
      have hd : ∀ d, d < 10 → (Nat.digitChar d).isDigit = true := by decide
      by_cases hn : n < 10
      · rw [Nat.toDigits_of_lt_base hn] at hc
        simp only [List.mem_singleton] at hc
        subst hc; exact hd _ hn
      · rw [Nat.toDigits_of_base_le (by decide) (by omega)] at hc
        simp only [List.mem_append, List.mem_singleton] at hc
        rcases hc with hc | hc
        · exact ih (n / 10) (by omega) hc
        · subst hc; exact hd _ (Nat.mod_lt n (by decide))
  exact absurd (hd this) (by decide)

theorem stdSample_ok : stdSample.Ok where
  f32_word x := by
    show isWord (if IsNaN32 x then "NaN" else toString x.toNat) = true
    split
    · rfl
    · exact nat_word _
  f64_word x := by
    show isWord (if IsNaN64 x then "NaN" else toString x.toNat) = true
    split
    · rfl
    · exact nat_word _
  f32_same x y := by
    show (if IsNaN32 x then "NaN" else toString x.toNat) = (if IsNaN32 y then "NaN" else toString y.toNat) ↔ _
    by_cases hx : IsNaN32 x <;> by_cases hy : IsNaN32 y <;> simp only [hx, hy, if_true, if_false]
    · simp
    · exact ⟨fun h => absurd h.symm (nat_ne_nan _), fun h => by rcases h with rfl | h; exact absurd hx hy; exact h.2.elim⟩
    · exact ⟨fun h => absurd h (nat_ne_nan _), fun h => by rcases h with rfl | h; exact absurd hy hx; exact h.1.elim⟩
    · exact ⟨fun h => .inl (UInt32.toNat.inj (nat_text h)), fun h => by rcases h with rfl | h; rfl; exact h.1.elim⟩
  f64_same x y := by
    show (if IsNaN64 x then "NaN" else toString x.toNat) = (if IsNaN64 y then "NaN" else toString y.toNat) ↔ _
    by_cases hx : IsNaN64 x <;> by_cases hy : IsNaN64 y <;> simp only [hx, hy, if_true, if_false]
    · simp
    · exact ⟨fun h => absurd h.symm (nat_ne_nan _), fun h => by rcases h with rfl | h; exact absurd hx hy; exact h.2.elim⟩
    · exact ⟨fun h => absurd h (nat_ne_nan _), fun h => by rcases h with rfl | h; exact absurd hy hx; exact h.1.elim⟩
    · exact ⟨fun h => .inl (UInt64.toNat.inj (nat_text h)), fun h => by rcases h with rfl | h; rfl; exact h.1.elim⟩
  io_ok e := by
    cases e with
    | interrupted => exact ok_tuple rfl (okI_cons (ok_word rfl) okI_nil)
    | unexpectedEof =>
      exact ok_struct rfl (okF_cons rfl (ok_word rfl) (okF_cons rfl (by simp only [Dbg.Ok]; decide) okF_nil))
    | other n => exact ok_struct rfl (okF_cons rfl (ok_word (nat_word n)) okF_nil)
  io_inj e e' h := by
    cases e <;> cases e' <;> first
      | rfl
      | exact noWay h rfl
      | exact congrArg IoError.other (nat_text (word_eq (struct1 h)))

/-! ### Modules -/

/-- C62: the tool's output for the sample module determines it. -/
example {bs : Bytes} {m : Module} (hm : BModule bs m) (hn : NaNFree m) (ha : NaNFree (assemble secsA)) :
    (cliMain (CliText.std stdSample (fun _ => ["x"])) true (.ok (Src.ofBytes bs))).stdout =
      (cliMain (CliText.std stdSample (fun _ => ["x"])) true (.ok (Src.ofBytes (preamble ++ bytesA)))).stdout ↔
    m = assemble secsA :=
  c62_exact stdSample_ok _ ⟨_, rfl, by rw [avail_ofBytes]; exact hm, by rw [fin_ofBytes]; rfl⟩
    ⟨_, rfl, by rw [avail_ofBytes]; exact bModA, by rw [fin_ofBytes]; rfl⟩ hn ha

/-- the module with one global of type f32 whose initialiser is the constant with these bytes -/
def nanModule (a b c d : UInt8) : Bytes := preamble ++ [0x06, 0x09, 0x01, 0x7D, 0x00, 0x43, a, b, c, d, 0x0B]

/-- a text given line by line -/
def lines : List String → List Char
  | [] => []
  | [l] => l.toList
  | l :: ls => l.toList ++ '\n' :: lines ls

/-- the debug text of the module or the error -/
def textOf (bs : Bytes) : Bool × List Char :=
  match (decodeModule (Src.ofBytes bs)).1 with
  | .ok m => (true, (dbg stdSample m).pretty)
  | .err e => (false, (dbg stdSample e).pretty)
  | _ => (false, [])

def outcomeOf (bs : Bytes) : CliOutcome := cliMain (CliText.std stdSample (fun _ => ["x"])) true (.ok (Src.ofBytes bs))

/-- C62: two NaNs look the same, … -/
example : textOf (nanModule 0x01 0x00 0x80 0x7F) = textOf (nanModule 0x02 0x00 0x80 0xFF) ∧
    (textOf (nanModule 0x01 0x00 0x80 0x7F)).1 = true := by decide +kernel

/-- … the two zeros do not. -/
example : textOf (nanModule 0 0 0 0) ≠ textOf (nanModule 0 0 0 0x80) := by decide +kernel

/-- The text of a small module. -/
example : textOf (nanModule 0x01 0x00 0x80 0x7F) = (true, lines [
  "Module {",
  "    version: [",
  "        1,",
  "        0,",
  "        0,",
  "        0,",
  "    ],",
  "    parsed_section_kinds: [",
  "        Global,",
  "    ],",
  "    section_headers: [",
  "        SectionHeader {",
  "            kind: Global,",
  "            size: 9,",
  "        },",
  "    ],",
  "    custom_sections: [],",
  "    types: [],",
  "    funcs: [],",
  "    tables: [],",
  "    mems: [],",
  "    globals: [",
  "        Global {",
  "            type: GlobalType(",
  "                Const,",
  "                Num(",
  "                    Float32,",
  "                ),",
  "            ),",
  "            init: [",
  "                F32Const(",
  "                    NaN,",
  "                ),",
  "            ],",
  "        },",
  "    ],",
  "    elems: [],",
  "    data_count: None,",
  "    datas: [],",
  "    start: None,",
  "    imports: [],",
  "    exports: [],",
  "    tags: [],",
  "}"]) := by decide +kernel

/-! ### Errors -/

/-- a type section whose only function type has a parameter of type 0xAA (README.md:71-99) -/
def badType : Bytes := preamble ++ [0x01, 0x05, 0x01, 0x60, 0x01, 0xAA, 0x00]

/-- The debug output of README.md:80-99, as the program at hand gives it. -/
example : textOf badType = (false, lines [
  "DecodeTypeSection(",
  "    DecodeList(",
  "        ParseElement {",
  "            position: 0,",
  "            source: DecodeRecTypeError::DecodeSubtype(",
  "                DecodeCompType(",
  "                    DecodeFuncParameters(",
  "                        DecodeList(",
  "                            ParseElement {",
  "                                position: 0,",
  "                                source: DecodeValTypeError::DecodeRefType(",
  "                                    InvalidMarkerByte(",
  "                                        InvalidMarkerByte(",
  "                                            InvalidAbsHeapTypeMarkerError(",
  "                                                170,",
  "                                            ),",
  "                                        ),",
  "                                    ),",
  "                                ),",
  "                            },",
  "                        ),",
  "                    ),",
  "                ),",
  "            ),",
  "        },",
  "    ),",
  ")"]) := by decide +kernel

/-- C63: whatever input gives that report has that error. -/
example {R : Type} [LawfulRead R] {r q : R} {e e' : DecodeModuleError} {q' : Src} (h : decodeModule r = (.err e, q))
    (h' : decodeModule (Src.ofBytes badType) = (.err e', q'))
    (hs : (cliMain (CliText.std stdSample (fun _ => ["x"])) true (.ok r)).stderr = (outcomeOf badType).stderr) :
    e = e' :=
  (c63_verbose stdSample_ok _ (by simp) h h').1 hs

/-- Another invalid type, another text. -/
example : textOf badType ≠ textOf (preamble ++ [0x01, 0x05, 0x01, 0x60, 0x01, 0xAB, 0x00]) := by decide +kernel

/-! ### Strings -/

example : (dbg stdSample (Str.mk [0x61, 0x22, 0x5C, 0x0A, 0x01, 0xC3, 0xA9, 0xE2, 0x82, 0xAC])).pretty =
    "\"a\\\"\\\\\\n\\u{1}é€\"".toList := by decide +kernel

/-! ### `{:?}` -/

example : String.ofList (dbg stdSample (⟨.Const, .Num .Int32⟩ : GlobalType)).compact = "GlobalType(Const, Num(Int32))" := by
  decide +kernel

example : String.ofList (dbg stdSample (⟨.I32, 1, some 2⟩ : Limits)).compact =
    "Limits { address_type: I32, min: 1, max: Some(2) }" := by decide +kernel

example {e : DecodeModuleError} : (dbg stdSample e).compact = (dbg stdSample DecodeModuleError.DataIndexWithoutDataCount).compact ↔
    e = .DataIndexWithoutDataCount := c64_error stdSample_ok

example {R : Type} [LawfulRead R] {r q : R} {m : Module} (h : decodeModule r = (.ok m, q)) :
    (dbg stdSample m).compact = (dbg stdSample (assemble secsA)).compact ↔
      oneNaNModule m = oneNaNModule (assemble secsA) := by
  obtain ⟨q', h'⟩ := modA
  exact c64_module stdSample_ok h h'

end Wadec
