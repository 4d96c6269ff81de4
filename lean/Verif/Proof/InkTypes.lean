import Verif.Proof.Ink
import Verif.Model.DebugCore

/-! C78: bounds for the debug texts of the types of fixed size. -/

namespace Wadec

/-- the text has at most `c` characters besides indentation, at most `h` levels of indentation, no path -/
def Slim (c h : Nat) (d : Dbg) : Prop := d.ink ≤ c ∧ d.tall ≤ h ∧ d.Pathless
def SlimItems (c h : Nat) (ds : List Dbg) : Prop := inkItems ds ≤ c ∧ tallItems ds ≤ h ∧ pathlessItems ds
def SlimFields (c h : Nat) (ds : List (String × Dbg)) : Prop := inkFields ds ≤ c ∧ tallFields ds ≤ h ∧ pathlessFields ds

theorem Slim.mono {c c' h h' : Nat} {d : Dbg} (s : Slim c h d) (hc : c ≤ c') (hh : h ≤ h') : Slim c' h' d :=
  ⟨Nat.le_trans s.1 hc, Nat.le_trans s.2.1 hh, s.2.2⟩
theorem SlimItems.mono {c c' h h' : Nat} {d : List Dbg} (s : SlimItems c h d) (hc : c ≤ c') (hh : h ≤ h') : SlimItems c' h' d :=
  ⟨Nat.le_trans s.1 hc, Nat.le_trans s.2.1 hh, s.2.2⟩

theorem Slim.word (s : String) : Slim s.toList.length 0 (.word s) := ⟨Nat.le_refl _, Nat.le_refl _, trivial⟩
theorem Slim.tuple {n : String} {fs : List Dbg} {c h : Nat} (s : SlimItems c h fs) :
    Slim (n.toList.length + 3 + c) h (.tuple n fs) := ⟨Nat.add_le_add_left s.1 _, s.2.1, s.2.2⟩
theorem Slim.struct {n : String} {fs : List (String × Dbg)} {c h : Nat} (s : SlimFields c h fs) :
    Slim (n.toList.length + 5 + c) h (.struct n fs) := ⟨Nat.add_le_add_left s.1 _, s.2.1, s.2.2⟩
theorem Slim.list {fs : List Dbg} {c h : Nat} (s : SlimItems c h fs) : Slim (3 + c) h (.list fs) :=
  ⟨Nat.add_le_add_left s.1 _, s.2.1, s.2.2⟩
theorem SlimItems.nil : SlimItems 0 0 [] := ⟨Nat.le_refl _, Nat.le_refl _, trivial⟩
theorem SlimItems.cons {f : Dbg} {fs : List Dbg} {c h c' h' : Nat} (s : Slim c h f) (ss : SlimItems c' h' fs) :
    SlimItems (c + 2 + c') (max (h + 1) h') (f :: fs) := by
  obtain ⟨a1, a2, a3⟩ := s
  obtain ⟨b1, b2, b3⟩ := ss
  refine ⟨?_, ?_, a3, b3⟩ <;> simp only [inkItems, tallItems] <;> omega
theorem SlimFields.nil : SlimFields 0 0 [] := ⟨Nat.le_refl _, Nat.le_refl _, trivial⟩
theorem SlimFields.cons {k : String} {f : Dbg} {fs : List (String × Dbg)} {c h c' h' : Nat} (s : Slim c h f)
    (ss : SlimFields c' h' fs) : SlimFields (k.toList.length + 4 + c + c') (max (h + 1) h') ((k, f) :: fs) := by
  obtain ⟨a1, a2, a3⟩ := s
  obtain ⟨b1, b2, b3⟩ := ss
  refine ⟨?_, ?_, a3, b3⟩ <;> simp only [inkFields, tallFields] <;> omega

/-- items that are all slim -/
theorem SlimItems.all {α : Type} {g : α → Dbg} {c h : Nat} : ∀ {xs : List α}, (∀ x ∈ xs, Slim c h (g x)) →
    SlimItems (xs.length * (c + 2)) (h + 1) (xs.map g)
  | [], _ => ⟨Nat.zero_le _, Nat.zero_le _, trivial⟩
  | x :: xs, hs => by
    refine (SlimItems.cons (hs x (List.mem_cons_self ..)) (SlimItems.all (c := c) (h := h) (g := g) (xs := xs)
      fun y hy => hs y (List.mem_cons_of_mem _ hy))).mono ?_ ?_
    · rw [List.length_cons, Nat.add_mul]; omega
    · omega

/-- items each of which is slim in its own measure -/
theorem SlimItems.total {α : Type} {g : α → Dbg} {k h : Nat} {size : α → Nat} : ∀ {xs : List α},
    (∀ x ∈ xs, Slim (k * size x - 2) h (g x) ∧ 2 ≤ k * size x) → SlimItems (k * Spec.total size xs) (h + 1) (xs.map g)
  | [], _ => ⟨Nat.zero_le _, Nat.zero_le _, trivial⟩
  | x :: xs, hs => by
    obtain ⟨hx, h2⟩ := hs x (List.mem_cons_self ..)
    refine (SlimItems.cons hx (SlimItems.total (k := k) (h := h) (g := g) (size := size) (xs := xs)
      fun y hy => hs y (List.mem_cons_of_mem _ hy))).mono ?_ ?_
    · rw [Spec.total, Nat.mul_add]; omega
    · omega

theorem Slim.out {c h : Nat} {d : Dbg} (s : Slim c h d) : d.ink ≤ c ∧ d.tall ≤ h ∧ d.Pathless := s
theorem Slim.str {s : String} {c : Nat} (h : s.toList.length + 2 ≤ c) : Slim c 0 (.str s) := ⟨h, Nat.le_refl _, trivial⟩

attribute [irreducible] Slim SlimItems SlimFields

/-- the types whose texts are bounded -/
class Trim (α : Type) [Debug α] (c h : outParam Nat) : Prop where
  trim : ∀ t (x : α), Slim c h (dbg t x)

theorem toDigits_length {b : Nat} (hb : 1 < b) : ∀ (k n : Nat), n < b ^ (k + 1) → (Nat.toDigits b n).length ≤ k + 1
  | 0, n, h => by rw [Nat.toDigits_of_lt_base (by simpa using h)]; simp
  | k + 1, n, h => by
    by_cases hn : n < b
    · rw [Nat.toDigits_of_lt_base hn]; simp
    · rw [Nat.toDigits_of_base_le hb (by omega)]
      have := toDigits_length hb k (n / b) (by
        rw [Nat.div_lt_iff_lt_mul (by omega), ← Nat.pow_succ]; exact h)
      simp; omega

theorem natText_length {n k : Nat} (h : n < 10 ^ (k + 1)) : (toString n).toList.length ≤ k + 1 := by
  have := toDigits_length (b := 10) (by decide) k n h
  rw [show (toString n).toList = Nat.toDigits 10 n from Nat.toList_repr ..]
  exact this

theorem intText_length {i : Int} {k : Nat} (h : i.natAbs < 10 ^ (k + 1)) : (toString i).toList.length ≤ k + 2 := by
  cases i with
  | ofNat n => exact Nat.le_succ_of_le (natText_length (by simpa using h))
  | negSucc n =>
    have := natText_length (n := n + 1) (k := k) (by simpa using h)
    have e : toString (Int.negSucc n) = "-" ++ toString (n + 1) := rfl
    rw [e, String.toList_append, List.length_append]
    have : "-".toList.length = 1 := rfl
    omega

instance : Trim UInt8 3 0 := ⟨fun _ x => (Slim.word _).mono (natText_length (k := 2) (Nat.lt_of_lt_of_le x.toNat_lt (by decide))) (Nat.le_refl _)⟩
instance : Trim UInt32 10 0 := ⟨fun _ x => (Slim.word _).mono (natText_length (k := 9) (Nat.lt_of_lt_of_le x.toNat_lt (by decide))) (Nat.le_refl _)⟩
instance : Trim UInt64 20 0 := ⟨fun _ x => (Slim.word _).mono (natText_length (k := 19) (Nat.lt_of_lt_of_le x.toNat_lt (by decide))) (Nat.le_refl _)⟩
instance : Trim Int32 11 0 := ⟨fun _ x => (Slim.word _).mono (intText_length (k := 9) (by
  have h1 := x.toInt_lt; have h2 := x.le_toInt; omega)) (Nat.le_refl _)⟩
instance : Trim Int64 20 0 := ⟨fun _ x => (Slim.word _).mono (intText_length (k := 18) (by
  have h1 := x.toInt_lt; have h2 := x.le_toInt; omega)) (Nat.le_refl _)⟩
instance : Trim Bool 5 0 := ⟨fun _ x => by cases x <;> exact (Slim.word _).mono (by decide) (Nat.le_refl _)⟩
instance {α : Type} [Debug α] {c h : Nat} [Trim α c h] : Trim (Option α) (c + 9) (h + 1) := ⟨fun t x => by
  cases x with
  | none => exact (Slim.word _).mono (Nat.le_trans (show "None".toList.length ≤ 9 by decide) (Nat.le_add_left _ _)) (Nat.zero_le _)
  | some x =>
    refine (Slim.tuple (.cons (Trim.trim t x) .nil)).mono ?_ (by omega)
    have : "Some".toList.length = 4 := rfl
    omega⟩

/-- one step: the text of a type seen before, or of a variant or field -/
macro "slim1" : tactic => `(tactic| first
  | with_reducible exact Trim.trim _ _ | exact Slim.word _ | exact SlimItems.nil | exact SlimFields.nil
  | apply SlimItems.cons | apply SlimFields.cons | apply Slim.tuple | apply Slim.struct)
/-- the bound of a type whose parts have been seen before -/
macro "slims" : tactic => `(tactic| (apply Slim.mono; (focus repeat' slim1); (focus decide +kernel); (focus decide +kernel)))

instance : Trim TypeIdx 24 1 := ⟨fun t x => by show Slim _ _ (.tuple _ _); slims⟩
instance : Trim FuncIdx 24 1 := ⟨fun t x => by show Slim _ _ (.tuple _ _); slims⟩
instance : Trim TableIdx 24 1 := ⟨fun t x => by show Slim _ _ (.tuple _ _); slims⟩
instance : Trim MemIdx 24 1 := ⟨fun t x => by show Slim _ _ (.tuple _ _); slims⟩
instance : Trim GlobalIdx 24 1 := ⟨fun t x => by show Slim _ _ (.tuple _ _); slims⟩
instance : Trim ElemIdx 24 1 := ⟨fun t x => by show Slim _ _ (.tuple _ _); slims⟩
instance : Trim DataIdx 24 1 := ⟨fun t x => by show Slim _ _ (.tuple _ _); slims⟩
instance : Trim LocalIdx 24 1 := ⟨fun t x => by show Slim _ _ (.tuple _ _); slims⟩
instance : Trim LabelIdx 24 1 := ⟨fun t x => by show Slim _ _ (.tuple _ _); slims⟩
instance : Trim TagIdx 24 1 := ⟨fun t x => by show Slim _ _ (.tuple _ _); slims⟩
instance : Trim AddrType 3 0 := ⟨fun t x => by cases x <;> (show Slim _ _ (.word _)) <;> slims⟩
instance : Trim NumType 7 0 := ⟨fun t x => by cases x <;> (show Slim _ _ (.word _)) <;> slims⟩
instance : Trim VecType 4 0 := ⟨fun t x => by cases x <;> (show Slim _ _ (.word _)) <;> slims⟩
instance : Trim AbsHeapType 8 0 := ⟨fun t x => by cases x <;> (show Slim _ _ (.word _)) <;> slims⟩
instance : Trim HeapType 36 2 := ⟨fun t x => by cases x <;> (show Slim _ _ (.tuple _ _)) <;> slims⟩
instance : Trim RefType 71 3 := ⟨fun t x => by show Slim _ _ (.struct _ _); slims⟩
instance : Trim ValType 79 4 := ⟨fun t x => by cases x <;> (show Slim _ _ (.tuple _ _)) <;> slims⟩
instance : Trim Mut 5 0 := ⟨fun t x => by cases x <;> (show Slim _ _ (.word _)) <;> slims⟩
instance : Trim GlobalType 101 5 := ⟨fun t x => by show Slim _ _ (.tuple _ _); slims⟩
instance : Trim PackType 3 0 := ⟨fun t x => by cases x <;> (show Slim _ _ (.word _)) <;> slims⟩
instance : Trim StorageType 91 5 := ⟨fun t x => by cases x <;> (show Slim _ _ (.tuple _ _)) <;> slims⟩
instance : Trim FieldType 112 6 := ⟨fun t x => by show Slim _ _ (.tuple _ _); slims⟩
instance : Trim Limits 93 2 := ⟨fun t x => by show Slim _ _ (.struct _ _); slims⟩
instance : Trim MemType 115 3 := ⟨fun t x => by show Slim _ _ (.struct _ _); slims⟩
instance : Trim TableType 199 4 := ⟨fun t x => by show Slim _ _ (.struct _ _); slims⟩
instance : Trim TagType 36 2 := ⟨fun t x => by show Slim _ _ (.tuple _ _); slims⟩
instance : Trim ExternType 209 6 := ⟨fun t x => by cases x <;> (show Slim _ _ (.tuple _ _)) <;> slims⟩
instance : Trim Memarg 95 2 := ⟨fun t x => by show Slim _ _ (.struct _ _); slims⟩
instance : Trim LaneIdx 15 1 := ⟨fun t x => by show Slim _ _ (.tuple _ _); slims⟩
instance : Trim BlockType 85 5 := ⟨fun t x => by
  cases x
  · show Slim _ _ (.word _); slims
  all_goals (show Slim _ _ (.tuple _ _); slims)⟩
instance : Trim Catch 63 2 := ⟨fun t x => by cases x <;> (show Slim _ _ (.tuple _ _)) <;> slims⟩
instance : Trim ExternIdx 35 2 := ⟨fun t x => by cases x <;> (show Slim _ _ (.tuple _ _)) <;> slims⟩
instance : Trim SectionKind 9 0 := ⟨fun t x => by cases x <;> (show Slim _ _ (.word _)) <;> slims⟩
instance : Trim SectionHeader 53 1 := ⟨fun t x => by show Slim _ _ (.struct _ _); slims⟩

end Wadec
