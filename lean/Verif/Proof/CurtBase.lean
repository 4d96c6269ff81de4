import Verif.Proof.InkTypes
import Verif.Proof.Lines
import Verif.Model.DebugErrors
import Verif.Spec.Length

/-! C79: how long the messages and the debug text of an error are.  `Curt` bounds the messages of an error type, `Terse`
its debug text; both apart from the texts of `io::Error`s and the bytes of ill-formed names. -/

namespace Wadec

open Spec

/-- The numbers in an error are less than 2^64, and the vectors in it have at most `n` elements (a wrong preamble: 8). -/
class Measured (ε : Type) where
  sane : Nat → ε → Prop
export Measured (sane)

/-- an error without such numbers and vectors -/
class Bare (ε : Type) [Measured ε] : Prop where
  free : ∀ n (e : ε), sane n e

instance : Measured IoError := ⟨fun _ _ => True⟩
instance : Bare IoError := ⟨fun _ _ => trivial⟩
instance : Measured UInt8 := ⟨fun _ _ => True⟩
instance : Bare UInt8 := ⟨fun _ _ => trivial⟩
instance : Measured UInt32 := ⟨fun _ _ => True⟩
instance : Bare UInt32 := ⟨fun _ _ => trivial⟩
instance : Measured UInt64 := ⟨fun _ _ => True⟩
instance : Bare UInt64 := ⟨fun _ _ => trivial⟩
instance : Measured Int64 := ⟨fun _ _ => True⟩
instance : Bare Int64 := ⟨fun _ _ => trivial⟩
instance : Measured SectionKind := ⟨fun _ _ => True⟩
instance : Bare SectionKind := ⟨fun _ _ => trivial⟩
instance : Measured FromUtf8Error := ⟨fun n e => e.bytes.length ≤ n ∧ e.valid_up_to < 2 ^ 64 ∧ ∀ k, e.error_len = some k → k < 2 ^ 64⟩

/-! ### Messages -/

/-- characters in messages -/
def charsIn (l : List String) : Nat := total String.length l

/-- The messages of an error have at most `own` characters, besides those of an `io::Error`. -/
class Curt (ε : Type) [ErrText ε] [Measured ε] where
  own : Nat
  curt : ∀ (io : IoError → List String) (q n : Nat) (e : ε), (∀ x, charsIn (io x) ≤ q) → sane n e → charsIn (ErrText.chain io e) ≤ own + q

/-- a text has at most `k` characters -/
def Len (k : Nat) (s : String) : Prop := s.toList.length ≤ k
instance (k : Nat) (s : String) : Decidable (Len k s) := inferInstanceAs (Decidable (_ ≤ _))

theorem Len.lit (l : List Char) : Len l.length (String.ofList l) := by simp [Len]
theorem Len.append {a b : Nat} {s t : String} (hs : Len a s) (ht : Len b t) : Len (a + b) (s ++ t) := by
  simp only [Len, String.toList_append, List.length_append] at *; omega
theorem Len.nat {n : Nat} (h : n < 2 ^ 64) : Len 20 (toString n) :=
  natText_length (n := n) (k := 19) (Nat.lt_of_lt_of_le h (by decide))
theorem Len.u8 (n : UInt8) : Len 20 (toString n.toNat) := .nat (Nat.lt_of_lt_of_le n.toNat_lt (by decide))
theorem Len.u32 (n : UInt32) : Len 20 (toString n.toNat) := .nat (Nat.lt_of_lt_of_le n.toNat_lt (by decide))
theorem Len.u64 (n : UInt64) : Len 20 (toString n.toNat) := .nat n.toNat_lt
theorem Len.int (x : Int64) : Len 20 (toString x.toInt) :=
  intText_length (i := x.toInt) (k := 18) (by have h1 := x.toInt_lt; have h2 := x.le_toInt; omega)
theorem Len.hex {n : Nat} (h : n < 2 ^ 32) : Len 20 (hex04 n) := by
  have := toDigits_length (b := 16) (by decide) 7 n (by simpa using h)
  unfold Len hex04 upperHex
  have e1 : "0x0".toList.length = 3 := rfl
  have e2 : "0x".toList.length = 2 := rfl
  split <;> simp only [String.toList_append, List.length_append, String.toList_ofList, List.length_map] <;> omega
theorem Len.hex8 (n : UInt8) : Len 20 (hex04 n.toNat) := .hex (Nat.lt_of_lt_of_le n.toNat_lt (by decide))
theorem Len.hex32 (n : UInt32) : Len 20 (hex04 n.toNat) := .hex n.toNat_lt
theorem Len.hexArray {b : Bytes} (h : b.length ≤ 8) : Len 240 (hexArray b) := by
  have hj : ∀ l : List String, (∀ s ∈ l, Len 28 s) → Len (28 * l.length) (String.join l) := by
    intro l
    induction l with
    | nil => intro _; exact Nat.le_refl _
    | cons s l ih =>
      intro hl
      have := (hl s (by simp)).append (ih fun t ht => hl t (by simp [ht]))
      rw [String.join_cons]
      simp only [Len, List.length_cons] at this ⊢
      omega
  unfold Wadec.hexArray
  split
  · decide
  · refine Nat.le_trans (((Len.lit ['[', '\n']).append (hj _ fun s hs => ?_)).append (Len.lit [']'])) ?_
    · obtain ⟨x, _, rfl⟩ := List.mem_map.1 hs
      have hx := toDigits_length (b := 16) (by decide) 7 x.toNat (Nat.lt_of_lt_of_le x.toNat_lt (by decide))
      have : Len 8 (upperHex x.toNat) := by simpa [Len, upperHex] using hx
      exact Nat.le_trans (((Len.lit [' ', ' ', ' ', ' ', '0', 'x']).append this).append (Len.lit [',', '\n'])) (by decide)
    · simp only [List.length_map, List.length_cons, List.length_nil]; omega
theorem Len.kind (k : SectionKind) : Len 9 k.debug := by cases k <;> decide +kernel

theorem Curt.leaf {io : IoError → List String} {q k own : Nat} {s : String} (h : Len k s) (hk : k ≤ own) : charsIn [s] ≤ own + q := by
  simp only [charsIn, total, Len, String.length_toList] at *; omega
theorem Curt.cons {ε : Type} [ErrText ε] [Measured ε] [Curt ε] {io : IoError → List String} {q n k own : Nat} {s : String} {e : ε}
    (hq : ∀ x, charsIn (io x) ≤ q) (hs : sane n e) (h : Len k s) (hk : k + Curt.own ε ≤ own) :
    charsIn (s :: ErrText.chain io e) ≤ own + q := by
  have := Curt.curt io q n e hq hs
  simp only [charsIn, total, Len, String.length_toList] at *; omega
theorem Curt.same {ε : Type} [ErrText ε] [Measured ε] [Curt ε] {io : IoError → List String} {q n own : Nat} {e : ε}
    (hq : ∀ x, charsIn (io x) ≤ q) (hs : sane n e) (hk : Curt.own ε ≤ own) : charsIn (ErrText.chain io e) ≤ own + q := by
  have := Curt.curt io q n e hq hs
  omega

instance : Curt IoError := ⟨0, fun io q _ e h _ => by simpa [ErrText.chain] using h e⟩
instance : Curt FromUtf8Error := ⟨100, fun io q _ e _ hs => by
  obtain ⟨-, h2, h3⟩ := hs
  refine Curt.leaf (io := io) (k := 100) ?_ (Nat.le_refl _)
  generalize hl : e.error_len = l
  cases l with
  | none =>
    have := Len.append (Len.lit "incomplete utf-8 byte sequence from index ".toList) (Len.nat h2)
    exact Nat.le_trans this (by decide)
  | some k =>
    have := ((Len.lit "invalid utf-8 sequence of ".toList).append (Len.nat (h3 k hl))).append (Len.lit " bytes from index ".toList)
    exact Nat.le_trans (this.append (Len.nat h2)) (by decide)⟩

/-! ### Debug texts -/

/-- A debug text of at most `a` characters and `b` line breaks, besides those of an `io::Error` of at most `u` characters, or of the
`n` bytes of a name, that is indented `d` times. -/
def Squat (a b d u n : Nat) (x : Dbg) : Prop :=
  x.pretty.length ≤ a + (1 + 4 * d) * u + (9 + 4 * d) * n ∧ breaks x.pretty ≤ b + u + n

class Terse (ε : Type) [Debug ε] [Measured ε] where
  a : Nat
  b : Nat
  d : Nat
  terse : ∀ (T : StdText) (u n : Nat) (e : ε), (∀ x, (T.io x).pretty.length ≤ u) → sane n e → Squat a b d u n (dbg T e)

theorem Squat.mono {a b d a' b' d' u n : Nat} {x : Dbg} (h : Squat a b d u n x) (ha : a ≤ a') (hb : b ≤ b') (hd : d ≤ d') :
    Squat a' b' d' u n x := by
  have h1 : (1 + 4 * d) * u ≤ (1 + 4 * d') * u := Nat.mul_le_mul_right _ (by omega)
  have h2 : (9 + 4 * d) * n ≤ (9 + 4 * d') * n := Nat.mul_le_mul_right _ (by omega)
  exact ⟨by have := h.1; omega, by have := h.2; omega⟩

/-- one level further to the right -/
theorem deeper (d u n : Nat) : (1 + 4 * (d + 1)) * u + (9 + 4 * (d + 1)) * n = (1 + 4 * d) * u + (9 + 4 * d) * n + 4 * u + 4 * n := by
  simp only [Nat.add_mul, Nat.mul_add]; omega

/-- a text of a known length, with known line breaks -/
def Fixed (a b : Nat) (x : Dbg) : Prop := x.pretty.length ≤ a ∧ breaks x.pretty ≤ b

theorem Fixed.short {a b u n : Nat} {x : Dbg} (h : Fixed a b x) : Squat a b 0 u n x := ⟨by have := h.1; omega, by have := h.2; omega⟩

theorem tuple_text (s : String) (x : Dbg) : (Dbg.tuple s [x]).pretty.length = s.toList.length + 9 + x.pretty.length + 4 * breaks x.pretty ∧
    breaks (Dbg.tuple s [x]).pretty = breaks s.toList + 2 + breaks x.pretty := by
  simp only [Dbg.pretty, prettyItems, List.append_nil, List.length_append, List.length_cons, List.length_nil, part_length, breaks_append,
    part_breaks, breaks, if_true, Char.reduceEq, if_false]
  constructor <;> omega

theorem fields_text (k : String) (x : Dbg) (fs : List (String × Dbg)) :
    (prettyFields ((k, x) :: fs)).length = k.toList.length + 8 + x.pretty.length + 4 * breaks k.toList + 4 * breaks x.pretty + (prettyFields fs).length ∧
    breaks (prettyFields ((k, x) :: fs)) = breaks k.toList + breaks x.pretty + 1 + breaks (prettyFields fs) := by
  have key : k.toList ++ ':' :: ' ' :: (x.pretty ++ [',', '\n']) = (k.toList ++ ':' :: ' ' :: x.pretty) ++ [',', '\n'] := by simp
  simp only [prettyFields, key, List.length_append, part_length, breaks_append, part_breaks, List.length_cons, breaks,
      Char.reduceEq, if_false]
  constructor <;> omega

theorem struct_text (s k : String) (x : Dbg) (fs : List (String × Dbg)) :
    (Dbg.struct s ((k, x) :: fs)).pretty.length = s.toList.length + 4 + (prettyFields ((k, x) :: fs)).length ∧
    breaks (Dbg.struct s ((k, x) :: fs)).pretty = breaks s.toList + 1 + breaks (prettyFields ((k, x) :: fs)) := by
  have key : (Dbg.struct s ((k, x) :: fs)).pretty = s.toList ++ (' ' :: '{' :: '\n' :: (prettyFields ((k, x) :: fs) ++ ['}'])) := by
    simp [Dbg.pretty, prettyFields]
  simp only [key, List.length_append, breaks_append, List.length_cons, List.length_nil, breaks, if_true, Char.reduceEq, if_false]
  constructor <;> omega

/-- names of variants and fields -/
def Label (k : Nat) (s : String) : Prop := s.toList.length ≤ k ∧ breaks s.toList = 0
instance (k : Nat) (s : String) : Decidable (Label k s) := inferInstanceAs (Decidable (_ ∧ _))

theorem Squat.tuple {a b d u n k : Nat} {s : String} {x : Dbg} (h : Squat a b d u n x) (hs : Label k s) :
    Squat (k + 9 + a + 4 * b) (b + 2) (d + 1) u n (.tuple s [x]) := by
  obtain ⟨h1, h2⟩ := tuple_text s x
  obtain ⟨h3, h4⟩ := hs
  obtain ⟨h5, h6⟩ := h
  have := deeper d u n
  exact ⟨by rw [h1]; omega, by rw [h2]; omega⟩

theorem Fixed.word {k : Nat} {s : String} (h : Label k s) : Fixed k 0 (.word s) := ⟨h.1, by simp [Dbg.pretty, h.2]⟩

theorem Fixed.nat {m : Nat} (h : m < 2 ^ 64) : Fixed 20 0 (.word (toString m)) := by
  refine ⟨natText_length (k := 19) (Nat.lt_of_lt_of_le h (by decide)), ?_⟩
  have h1 := NoBreak.nat m
  have : ∀ l : List Char, '\n' ∉ l → breaks l ≤ 0 := by
    intro l
    induction l with
    | nil => simp [breaks]
    | cons c l ih =>
      intro h
      simp only [List.mem_cons, not_or] at h
      simp only [breaks, if_neg (Ne.symm h.1)]
      have := ih h.2
      omega
  exact this _ h1

theorem Fixed.int (m : Int64) : Fixed 20 0 (.word (toString m.toInt)) := by
  refine ⟨intText_length (k := 18) (by have h1 := m.toInt_lt; have h2 := m.le_toInt; omega), ?_⟩
  have h1 := NoBreak.int m.toInt
  have : ∀ l : List Char, '\n' ∉ l → breaks l ≤ 0 := by
    intro l
    induction l with
    | nil => simp [breaks]
    | cons c l ih =>
      intro h
      simp only [List.mem_cons, not_or] at h
      simp only [breaks, if_neg (Ne.symm h.1)]
      have := ih h.2
      omega
  exact this _ h1

theorem Fixed.u8 (T : StdText) (m : UInt8) : Fixed 20 0 (dbg T m) := .nat (Nat.lt_of_lt_of_le m.toNat_lt (by decide))
theorem Fixed.u32 (T : StdText) (m : UInt32) : Fixed 20 0 (dbg T m) := .nat (Nat.lt_of_lt_of_le m.toNat_lt (by decide))
theorem Fixed.u64 (T : StdText) (m : UInt64) : Fixed 20 0 (dbg T m) := .nat m.toNat_lt
theorem Fixed.kind (T : StdText) (k : SectionKind) : Fixed 20 0 (dbg T k) := by
  cases k <;> exact Fixed.word (k := 20) (by decide)

instance : Terse UInt8 := ⟨20, 0, 0, fun T _ _ x _ _ => (Fixed.u8 T x).short⟩
instance : Terse UInt32 := ⟨20, 0, 0, fun T _ _ x _ _ => (Fixed.u32 T x).short⟩
instance : Terse UInt64 := ⟨20, 0, 0, fun T _ _ x _ _ => (Fixed.u64 T x).short⟩
instance : Terse Int64 := ⟨20, 0, 0, fun _ _ _ x _ _ => (Fixed.int x).short⟩
instance : Terse SectionKind := ⟨20, 0, 0, fun T _ _ x _ _ => (Fixed.kind T x).short⟩
instance : Terse IoError := ⟨0, 0, 0, fun T u n e h _ => by
  have h1 := h e
  have h2 := breaks_le (T.io e).pretty
  exact ⟨by show (T.io e).pretty.length ≤ _; omega, by show breaks (T.io e).pretty ≤ _; omega⟩⟩

/-- a struct with one fixed field and another behind it -/
theorem Squat.struct {a b d u n k k1 k2 c : Nat} {s f g : String} {w x : Dbg} (hw : Fixed c 0 w) (h : Squat a b d u n x)
    (hs : Label k s) (hf : Label k1 f) (hg : Label k2 g) :
    Squat (k + k1 + k2 + c + 20 + a + 4 * b) (b + 3) (d + 1) u n (.struct s [(f, w), (g, x)]) := by
  obtain ⟨h1, h2⟩ := struct_text s f w [(g, x)]
  obtain ⟨h3, h4⟩ := fields_text f w [(g, x)]
  obtain ⟨h5, h6⟩ := fields_text g x []
  have e1 : (prettyFields []).length = 0 := rfl
  have e2 : breaks (prettyFields []) = 0 := rfl
  obtain ⟨s1, s2⟩ := hs; obtain ⟨f1, f2⟩ := hf; obtain ⟨g1, g2⟩ := hg; obtain ⟨w1, w2⟩ := hw; obtain ⟨x1, x2⟩ := h
  have := deeper d u n
  exact ⟨by rw [h1]; omega, by rw [h2]; omega⟩

/-- a struct of fixed fields -/
theorem Fixed.two {k k1 k2 c1 c2 : Nat} {s f g : String} {w x : Dbg} (hw : Fixed c1 0 w) (hx : Fixed c2 0 x)
    (hs : Label k s) (hf : Label k1 f) (hg : Label k2 g) : Fixed (k + k1 + k2 + c1 + c2 + 20) 3 (.struct s [(f, w), (g, x)]) := by
  obtain ⟨h1, h2⟩ := struct_text s f w [(g, x)]
  obtain ⟨h3, h4⟩ := fields_text f w [(g, x)]
  obtain ⟨h5, h6⟩ := fields_text g x []
  have e1 : (prettyFields []).length = 0 := rfl
  have e2 : breaks (prettyFields []) = 0 := rfl
  obtain ⟨s1, s2⟩ := hs; obtain ⟨f1, f2⟩ := hf; obtain ⟨g1, g2⟩ := hg; obtain ⟨w1, w2⟩ := hw; obtain ⟨x1, x2⟩ := hx
  exact ⟨by rw [h1]; omega, by rw [h2]; omega⟩

theorem Fixed.three {k k1 k2 k3 c1 c2 c3 : Nat} {s f g i : String} {w x y : Dbg} (hw : Fixed c1 0 w) (hx : Fixed c2 0 x) (hy : Fixed c3 0 y)
    (hs : Label k s) (hf : Label k1 f) (hg : Label k2 g) (hi : Label k3 i) :
    Fixed (k + k1 + k2 + k3 + c1 + c2 + c3 + 28) 4 (.struct s [(f, w), (g, x), (i, y)]) := by
  obtain ⟨h1, h2⟩ := struct_text s f w [(g, x), (i, y)]
  obtain ⟨h3, h4⟩ := fields_text f w [(g, x), (i, y)]
  obtain ⟨h5, h6⟩ := fields_text g x [(i, y)]
  obtain ⟨h7, h8⟩ := fields_text i y []
  have e1 : (prettyFields []).length = 0 := rfl
  have e2 : breaks (prettyFields []) = 0 := rfl
  obtain ⟨s1, s2⟩ := hs; obtain ⟨f1, f2⟩ := hf; obtain ⟨g1, g2⟩ := hg; obtain ⟨i1, i2⟩ := hi
  obtain ⟨w1, w2⟩ := hw; obtain ⟨x1, x2⟩ := hx; obtain ⟨y1, y2⟩ := hy
  exact ⟨by rw [h1]; omega, by rw [h2]; omega⟩

theorem Squat.path {a b d u n k : Nat} {s : String} {x : Dbg} (h : Squat a b d u n x) (hs : Label k s) :
    Squat (a + k + 2) b d u n (.path s x) := by
  obtain ⟨s1, s2⟩ := hs; obtain ⟨x1, x2⟩ := h
  have e1 : (Dbg.path s x).pretty.length = s.toList.length + 2 + x.pretty.length := by
    simp only [Dbg.pretty, List.length_append, List.length_cons]; omega
  have e2 : breaks (Dbg.path s x).pretty = breaks s.toList + breaks x.pretty := by
    simp only [Dbg.pretty, breaks_append, breaks, Char.reduceEq, if_false]; omega
  exact ⟨by rw [e1]; omega, by rw [e2]; omega⟩

/-- a list of bytes, one per line -/
theorem bytes_text (T : StdText) : ∀ bs : Bytes, (prettyItems (bs.map (dbg T))).length ≤ 9 * bs.length ∧
    breaks (prettyItems (bs.map (dbg T))) = bs.length
  | [] => ⟨by simp [prettyItems], rfl⟩
  | x :: bs => by
    obtain ⟨h1, h2⟩ := bytes_text T bs
    have h3 : (dbg T x).pretty.length ≤ 3 := natText_length (k := 2) (Nat.lt_of_lt_of_le x.toNat_lt (by decide))
    have h4 := (Fixed.u8 T x).2
    simp only [List.map_cons, prettyItems, List.length_append, part_length, breaks_append, part_breaks, List.length_cons, h2]
    constructor <;> omega

theorem Squat.bytes (T : StdText) (u : Nat) {n : Nat} {bs : Bytes} (h : bs.length ≤ n) : Squat 3 1 0 u n (dbg T bs) := by
  obtain ⟨h1, h2⟩ := bytes_text T bs
  cases bs with
  | nil => exact ⟨by show 2 ≤ _; omega, by show 0 ≤ _; omega⟩
  | cons x bs =>
    have key : (dbg T (x :: bs)).pretty = '[' :: '\n' :: (prettyItems ((x :: bs).map (dbg T)) ++ [']']) := by
      show (Dbg.list (dbg T x :: bs.map (dbg T))).pretty = _
      simp [Dbg.pretty, prettyItems]
    refine ⟨?_, ?_⟩
    · rw [key]; simp only [List.length_cons, List.length_append, List.length_nil] at *; omega
    · rw [key]; simp only [breaks, breaks_append, h2, Char.reduceEq, if_false, if_true]; simp only [List.length_cons] at *; omega

instance : Terse FromUtf8Error := ⟨300, 12, 2, fun T u n e _ hs => by
  obtain ⟨h1, h2, h3⟩ := hs
  have hb := Squat.bytes T u h1
  have hv : Fixed 20 0 (dbg T e.valid_up_to) := .nat h2
  have hl : Fixed 40 3 (dbg T e.error_len) := by
    generalize hl : e.error_len = l
    cases l with
    | none => exact ⟨by show (Dbg.word "None").pretty.length ≤ 40; decide, by show breaks (Dbg.word "None").pretty ≤ 3; decide⟩
    | some k =>
      obtain ⟨t1, t2⟩ := tuple_text "Some" (dbg T k)
      obtain ⟨k1, k2⟩ : Fixed 20 0 (dbg T k) := .nat (h3 k hl)
      have e1 : "Some".toList.length = 4 := rfl
      have e2 : breaks "Some".toList = 0 := rfl
      exact ⟨by show (Dbg.tuple "Some" [dbg T k]).pretty.length ≤ _; omega, by show breaks (Dbg.tuple "Some" [dbg T k]).pretty ≤ _; omega⟩
  show Squat _ _ _ _ _ (.struct "FromUtf8Error" [("bytes", dbg T e.bytes),
    ("error", .struct "Utf8Error" [("valid_up_to", dbg T e.valid_up_to), ("error_len", dbg T e.error_len)])])
  generalize dbg T e.bytes = x at *
  generalize dbg T e.valid_up_to = y at *
  generalize dbg T e.error_len = z at *
  obtain ⟨a1, a2⟩ := struct_text "FromUtf8Error" "bytes" x [("error", .struct "Utf8Error" [("valid_up_to", y), ("error_len", z)])]
  obtain ⟨b1, b2⟩ := fields_text "bytes" x [("error", .struct "Utf8Error" [("valid_up_to", y), ("error_len", z)])]
  obtain ⟨c1, c2⟩ := fields_text "error" (.struct "Utf8Error" [("valid_up_to", y), ("error_len", z)]) []
  obtain ⟨d1, d2⟩ := struct_text "Utf8Error" "valid_up_to" y [("error_len", z)]
  obtain ⟨f1, f2⟩ := fields_text "valid_up_to" y [("error_len", z)]
  obtain ⟨g1, g2⟩ := fields_text "error_len" z []
  have e1 : (prettyFields []).length = 0 := rfl
  have e2 : breaks (prettyFields []) = 0 := rfl
  have l1 : "FromUtf8Error".toList.length = 13 ∧ breaks "FromUtf8Error".toList = 0 := ⟨rfl, rfl⟩
  have l2 : "bytes".toList.length = 5 ∧ breaks "bytes".toList = 0 := ⟨rfl, rfl⟩
  have l3 : "error".toList.length = 5 ∧ breaks "error".toList = 0 := ⟨rfl, rfl⟩
  have l4 : "Utf8Error".toList.length = 9 ∧ breaks "Utf8Error".toList = 0 := ⟨rfl, rfl⟩
  have l5 : "valid_up_to".toList.length = 11 ∧ breaks "valid_up_to".toList = 0 := ⟨rfl, rfl⟩
  have l6 : "error_len".toList.length = 9 ∧ breaks "error_len".toList = 0 := ⟨rfl, rfl⟩
  obtain ⟨x1, x2⟩ := hb; obtain ⟨y1, y2⟩ := hv; obtain ⟨z1, z2⟩ := hl
  have := deeper 0 u n
  have : Squat 300 12 1 u n _ := ⟨by rw [a1]; omega, by rw [a2]; omega⟩
  exact this.mono (Nat.le_refl _) (Nat.le_refl _) (by decide)⟩

end Wadec
