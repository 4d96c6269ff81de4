import Verif.Proof.Texts
import Verif.Spec.Lines

/-! C67: the messages of an error are few, and each is one line. -/

namespace Wadec

open Spec

/-- An error has at most `own` messages besides those of an `io::Error`, or one. -/
class Brief (ε : Type) [ErrText ε] where
  own : Nat
  brief : ∀ (io : IoError → List String) (k : Nat) (e : ε), 1 ≤ k → (∀ x, (io x).length ≤ k) →
    (ErrText.chain io e).length ≤ own + k

class Lined (ε : Type) [ErrText ε] : Prop where
  line : ∀ (io : IoError → List String) (e : ε), (∀ x, ∀ s ∈ io x, OneLine s) → ∀ s ∈ ErrText.chain io e, OneLine s

instance : Brief IoError where
  own := 0
  brief io k e _ hk := by simpa [ErrText.chain] using hk e

instance : Brief FromUtf8Error where
  own := 0
  brief io k e h1 _ := by simpa [ErrText.chain] using h1

instance : Lined IoError where
  line _ e h := h e

theorem mem_toDigits {b n : Nat} (hb : 1 < b) (hb' : b ≤ 16) : ∀ c ∈ Nat.toDigits b n, c ∈ "0123456789abcdef".toList := by
  induction n using Nat.strongRecOn with
  | _ n ih =>
    have hd : ∀ d, d < 16 → Nat.digitChar d ∈ "0123456789abcdef".toList := by decide
    by_cases h : n < b
    · rw [Nat.toDigits_of_lt_base h]
      intro c hc
      rw [List.mem_singleton.1 hc]
      exact hd n (by omega)
    · rw [Nat.toDigits_of_base_le hb (by omega)]
      intro c hc
      rcases List.mem_append.1 hc with hc | hc
      · exact ih (n / b) (Nat.div_lt_self (by omega) hb) c hc
      · rw [List.mem_singleton.1 hc]
        exact hd _ (by have := Nat.mod_lt n (show 0 < b by omega); omega)

/-- No line break. -/
def NoBreak (s : String) : Prop := '\n' ∉ s.toList

theorem NoBreak.append {a b : String} (ha : NoBreak a) (hb : NoBreak b) : NoBreak (a ++ b) := by
  simp only [NoBreak, String.toList_append, List.mem_append, not_or] at *
  exact ⟨ha, hb⟩

theorem NoBreak.nat (n : Nat) : NoBreak (toString n) := by
  intro h
  have : (toString n : String).toList = Nat.toDigits 10 n := by simp [toString, Nat.repr]
  rw [this] at h
  exact absurd (mem_toDigits (by decide) (by decide) _ h) (by decide)

theorem NoBreak.int (i : Int) : NoBreak (toString i) := by
  cases i with
  | ofNat n => exact NoBreak.nat n
  | negSucc n =>
    show NoBreak ("-" ++ toString (n + 1))
    exact NoBreak.append (by unfold NoBreak; decide) (NoBreak.nat _)

theorem NoBreak.upperHex (n : Nat) : NoBreak (upperHex n) := by
  intro h
  simp only [Wadec.upperHex, String.toList_ofList, List.mem_map] at h
  obtain ⟨c, hc, h⟩ := h
  have h1 := mem_toDigits (b := 16) (by decide) (by decide) c hc
  have : ∀ c ∈ "0123456789abcdef".toList, c.toUpper ≠ '\n' := by decide
  exact this c h1 h

theorem NoBreak.hex04 (n : Nat) : NoBreak (hex04 n) := by
  unfold Wadec.hex04
  split <;> exact NoBreak.append (by unfold NoBreak; decide) (NoBreak.upperHex n)

theorem NoBreak.kind (k : SectionKind) : NoBreak k.debug := by
  cases k <;> (unfold NoBreak; decide)

theorem OneLine.left {a b : String} (ha : OneLine a) (hb : NoBreak b) : OneLine (a ++ b) :=
  ⟨by simp [ha.1], NoBreak.append ha.2 hb⟩

theorem OneLine.right {a b : String} (ha : NoBreak a) (hb : OneLine b) : OneLine (a ++ b) :=
  ⟨by simp [hb.1], NoBreak.append ha hb.2⟩

theorem NoBreak.lit (l : List Char) (h : l.all (· != '\n') = true) : NoBreak (String.ofList l) := by
  simp at h
  simp only [NoBreak, String.toList_ofList]
  exact fun h' => h _ h' rfl

theorem OneLine.lit (l : List Char) (h : (l != [] && l.all (· != '\n')) = true) : OneLine (String.ofList l) := by
  simp only [Bool.and_eq_true] at h
  exact ⟨by simpa using h.1, NoBreak.lit l h.2⟩

theorem NoBreak.intercalate {s : String} {l : List String} (hs : NoBreak s) (hl : ∀ t ∈ l, NoBreak t) : NoBreak (s.intercalate l) := by
  intro h
  rw [String.toList_intercalate] at h
  induction l with
  | nil => simp at h
  | cons a l ih =>
    cases l with
    | nil => simp at h; exact hl a (by simp) h
    | cons b l =>
      simp only [List.map_cons, List.intercalate_cons_cons, List.mem_append] at h ih
      rcases h with (h | h) | h
      · exact hl a (by simp) h
      · exact hs h
      · exact ih (fun t ht => hl t (by simp at ht ⊢; exact .inr ht)) h

theorem NoBreak.markers {α : Type} {name : α → String} {l : List (UInt8 × α)} (h : ∀ v, NoBreak (name v)) :
    NoBreak (markersFormatted name l) := by
  refine NoBreak.intercalate (.lit [',', ' '] rfl) fun t ht => ?_
  obtain ⟨⟨b, v⟩, _, rfl⟩ := List.mem_map.1 ht
  exact NoBreak.append (NoBreak.append (NoBreak.append (NoBreak.hex04 _) (.lit [' ', '('] rfl)) (h v)) (.lit [')'] rfl)

theorem NoBreak.heap (k : AbsHeapType) : NoBreak k.debug := by
  cases k <;> (unfold NoBreak; decide)
theorem NoBreak.mut (k : Mut) : NoBreak k.debug := by
  cases k <;> (unfold NoBreak; decide)
theorem NoBreak.pack (k : PackType) : NoBreak k.debug := by
  cases k <;> (unfold NoBreak; decide)

theorem Brief.leaf {n k : Nat} {s : String} (h1 : 1 ≤ k) : ([s] : List String).length ≤ n + k := by
  simp; omega

theorem Brief.same {ε : Type} [ErrText ε] [Brief ε] {io : IoError → List String} {n k : Nat} {e : ε} (h1 : 1 ≤ k)
    (hk : ∀ x, (io x).length ≤ k) (hn : Brief.own ε ≤ n) : (ErrText.chain io e).length ≤ n + k := by
  have := Brief.brief io k e h1 hk
  omega

theorem Brief.cons {ε : Type} [ErrText ε] [Brief ε] {io : IoError → List String} {n k : Nat} {s : String} {e : ε} (h1 : 1 ≤ k)
    (hk : ∀ x, (io x).length ≤ k) (hn : Brief.own ε < n) : (s :: ErrText.chain io e).length ≤ n + k := by
  have := Brief.brief io k e h1 hk
  simp only [List.length_cons]
  omega

theorem Lined.leaf {t : String} (h : OneLine t) : ∀ s ∈ [t], OneLine s := fun _ hs => List.mem_singleton.1 hs ▸ h

theorem Lined.cons {ε : Type} [ErrText ε] [Lined ε] {io : IoError → List String} {t : String} {e : ε}
    (h : ∀ x, ∀ s ∈ io x, OneLine s) (ht : OneLine t) : ∀ s ∈ t :: ErrText.chain io e, OneLine s := by
  intro s hs
  rcases List.mem_cons.1 hs with rfl | hs
  · exact ht
  · exact Lined.line io e h s hs

instance : Lined FromUtf8Error where
  line _ e _ s hs := by
    simp only [ErrText.chain, List.mem_singleton] at hs
    subst hs
    split
    · exact OneLine.left (OneLine.left (OneLine.left (OneLine.lit ['i', 'n', 'v', 'a', 'l', 'i', 'd', ' ', 'u', 't', 'f', '-', '8', ' ', 's', 'e', 'q', 'u', 'e', 'n', 'c', 'e', ' ', 'o', 'f', ' '] rfl) (NoBreak.nat _)) (.lit [' ', 'b', 'y', 't', 'e', 's', ' ', 'f', 'r', 'o', 'm', ' ', 'i', 'n', 'd', 'e', 'x', ' '] rfl)) (NoBreak.nat _)
    · exact OneLine.left (OneLine.lit ['i', 'n', 'c', 'o', 'm', 'p', 'l', 'e', 't', 'e', ' ', 'u', 't', 'f', '-', '8', ' ', 'b', 'y', 't', 'e', ' ', 's', 'e', 'q', 'u', 'e', 'n', 'c', 'e', ' ', 'f', 'r', 'o', 'm', ' ', 'i', 'n', 'd', 'e', 'x', ' '] rfl) (NoBreak.nat _)

end Wadec
