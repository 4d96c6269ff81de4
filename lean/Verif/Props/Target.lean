import Verif.Proof.TargetAt
import Verif.Proof.TargetGrown
import Verif.Props.Robust
import Verif.Props.Reserved
import Verif.Props.Resources
import Verif.Props.Sample

/-! C77: decoding on a target that has no room for some vectors (`Wadec.Bounded`, Verif/Model/TargetBase.lean). -/

namespace Wadec

open LawfulRead Spec
open Bounded (Target ElemKind)

/-- Every length that is asked for is below 2^32. -/
def anyLedger (R : Type) [Read R] : Bounded.Ledger R where
  seen _ n := n < 2 ^ 32
  read _ _ _ h := h
  keep _ _ _ h := h
  add _ _ h := h
  unread _ _ _ h := h
  unkeep _ _ _ h := .inr h

/-- Every length that is asked for is in the log. -/
def srcLedger : Bounded.Ledger Src where
  seen s n := n ∈ s.log
  read n s m h := by
    have : (Read.read n s).2.log = s.log := by
      simp only [Read.read, Src.read]
      repeat' (first | rfl | split)
    rw [this]; exact h
  keep n s m h := List.mem_append_left _ h
  add n s _ := List.mem_append_right _ (List.mem_singleton.2 rfl)
  unread n s m h := by
    have : (Read.read n s).2.log = s.log := by
      simp only [Read.read, Src.read]
      repeat' (first | rfl | split)
    rw [this] at h; exact h
  unkeep n s m h := by
    rcases List.mem_append.1 h with h | h
    · exact .inr h
    · exact .inl (List.mem_singleton.1 h)

theorem elem_le_sum {n : Nat} : ∀ {l : List Nat}, n ∈ l → n ≤ l.sum
  | [], h => by cases h
  | x :: l, h => by
    rw [List.sum_cons]
    rcases List.mem_cons.1 h with rfl | h
    · omega
    · have := elem_le_sum h
      omega

section
variable {R : Type} [Read R]

/-- C77: on every target, every reader (lawful or not) and every input give what they give where there is room for everything, or a
panic; and a panic only if there is no room for some vector of less than 2^32 elements. -/
theorem c77_limit (r : R) (T : Target) : Bounded.decodeModule r T = decodeModule r ∨ ((Bounded.decodeModule r T).1 = .panic ∧
    ((∃ k n, n < 2 ^ 32 ∧ T.fits k n = false) ∨ (∃ n, n < 2 ^ 32 ∧ T.grows n = false))) := by
  letI := anyLedger R
  rcases Bounded.tied_module.same r T with h | ⟨h1, ⟨k, n, h2, h3⟩ | ⟨h2, _⟩⟩
  · exact .inl h.1
  · exact .inr ⟨h1, .inl ⟨k, n, h3, h2⟩⟩
  · exact .inr ⟨h1, .inr h2⟩

/-- C77: a target with room for vectors of less than 2^32 elements is no limit. -/
theorem c77_wide {T : Target} (h1 : ∀ k n, n < 2 ^ 32 → T.fits k n = true) (h2 : ∀ n, n < 2 ^ 32 → T.grows n = true) (r : R) :
    Bounded.decodeModule r T = decodeModule r := by
  rcases c77_limit r T with h | ⟨_, ⟨k, n, h3, h4⟩ | ⟨n, h3, h4⟩⟩
  · exact h
  · rw [h1 k n h3] at h4; cases h4
  · rw [h2 n h3] at h4; cases h4

/-- C77: so are 64-bit addresses: elements of less than 2^30 bytes each, vectors that are made if they have at most 2^63 - 1 bytes, and
vectors that grow if twice as many elements and four more have at most 2^63 - 1 bytes. -/
theorem c77_wide64 {T : Target} {size : ElemKind → Nat} (hs : ∀ k, size k < 2 ^ 30)
    (h1 : ∀ k n, size k * n ≤ 2 ^ 63 - 1 → T.fits k n = true) (h2 : ∀ n, size .valType * (2 * n + 4) ≤ 2 ^ 63 - 1 → T.grows n = true)
    (r : R) : Bounded.decodeModule r T = decodeModule r := by
  refine c77_wide (fun k n hn => h1 k n ?_) (fun n hn => h2 n ?_) r
  · have := Nat.mul_le_mul (Nat.le_of_lt_succ (hs k)) (Nat.le_of_lt hn)
    omega
  · have := Nat.mul_le_mul (Nat.le_of_lt_succ (hs .valType)) (show 2 * n + 4 ≤ 2 ^ 33 + 2 by omega)
    omega

end

/-- C77: with room for vectors of less than 2^32 elements, `decode_module` panics on no reader that keeps to the contract of `Read`. -/
theorem c77_total {R : Type} [LawfulRead R] {T : Target} (h1 : ∀ k n, n < 2 ^ 32 → T.fits k n = true)
    (h2 : ∀ n, n < 2 ^ 32 → T.grows n = true) (r : R) :
    (∃ m r', Bounded.decodeModule r T = (.ok m, r')) ∨ (∃ e r', Bounded.decodeModule r T = (.err e, r')) := by
  rw [c77_wide h1 h2]
  exact c29_total r

/-! ### What is needed for an input -/

/-- C77: a module is decoded as if there were room for everything if there is room for vectors of as many elements as the module has
bytes, and for the locals of its functions. -/
theorem c77_accepted {evs : List Ev} {s' : Src} {m : Module} (h : decodeModule (⟨evs, []⟩ : Src) = (.ok m, s')) {T : Target}
    (h1 : ∀ k n, n ≤ Src.volume evs → T.fits k n = true) (h2 : ∀ f ∈ m.funcs, ∀ n, n ≤ f.locals.length → T.grows n = true) :
    Bounded.decodeModule (⟨evs, []⟩ : Src) T = (.ok m, s') := by
  letI := srcLedger
  rcases Bounded.tied_module.same (⟨evs, []⟩ : Src) T with h3 | ⟨_, ⟨k, n, h3, h4⟩ | ⟨_, h3⟩⟩
  · rw [h3.1, h]
  · rw [h] at h4
    obtain ⟨new, h5, h6⟩ := c65_accepted h
    rw [List.nil_append] at h5
    change n ∈ s'.log at h4
    rw [h5] at h4
    have h7 : n ≤ new.sum := elem_le_sum h4
    have := h1 k n (by simp only at h6; omega)
    rw [this] at h3; cases h3
  · obtain ⟨f, hf, n, hn, hg⟩ := h3 m (by rw [h])
    rw [h2 f hf n hn] at hg; cases hg

/-- C77: the same for byte strings. -/
theorem c77_bytes {bs : Bytes} {m : Module} (h : BModule bs m) {T : Target} (h1 : ∀ k n, n ≤ bs.length → T.fits k n = true)
    (h2 : ∀ f ∈ m.funcs, ∀ n, n ≤ f.locals.length → T.grows n = true) :
    ∃ r', Bounded.decodeModule (Src.ofBytes bs) T = (.ok m, r') := by
  obtain ⟨r', hd⟩ := (c18_bytes bs m).2 h
  exact ⟨r', c77_accepted hd (fun k n hn => h1 k n (by simpa [Src.volume] using hn)) h2⟩

/-- C77: what does not panic had room: for every length that was asked for there is room for a vector of some kind. -/
theorem c77_needs {evs : List Ev} {T : Target} (h : (Bounded.decodeModule (⟨evs, []⟩ : Src) T).1 ≠ .panic) :
    Bounded.decodeModule (⟨evs, []⟩ : Src) T = decodeModule (⟨evs, []⟩ : Src) ∧
    ∀ n ∈ (decodeModule (⟨evs, []⟩ : Src)).2.log, ∃ k, T.fits k n = true := by
  letI := srcLedger
  rcases Bounded.tied_module.same (⟨evs, []⟩ : Src) T with h3 | ⟨h3, _⟩
  · exact ⟨h3.1, h3.2 (fun n hn => by cases hn)⟩
  · exact absurd h3 h

/-- C77: and what is accepted had room for the locals of its functions. -/
theorem c77_locals {R : Type} [Read R] {r r' : R} {m : Module} {T : Target} (h : Bounded.decodeModule r T = (.ok m, r')) :
    ∀ f ∈ m.funcs, f.locals = [] ∨ T.grows f.locals.length = true :=
  Bounded.module_given r m (by rw [h])

/-- C77: so a module with a function whose locals there is no room for makes `decode_module` panic. -/
theorem c77_crowded {R : Type} [Read R] {r r' : R} {m : Module} (h : decodeModule r = (.ok m, r')) {f : Func} (hf : f ∈ m.funcs)
    (h0 : f.locals ≠ []) {T : Target} (hT : T.grows f.locals.length = false) : (Bounded.decodeModule r T).1 = .panic := by
  rcases c77_limit r T with h1 | h1
  · rw [h] at h1
    rcases c77_locals h1 f hf with h2 | h2
    · exact absurd h2 h0
    · rw [hT] at h2; cases h2
  · exact h1.1

/-- C77: and 24 bytes are enough for that, whatever number of locals it is that there is no room for. -/
theorem c77_many {T : Target} (n : UInt32) (hn : n ≠ 0) (hT : T.grows n.toNat = false) :
    (manyLocals n).length = 24 ∧ (Bounded.decodeModule (Src.ofBytes (manyLocals n)) T).1 = .panic := by
  obtain ⟨h1, m, r', h2, h3⟩ := c43_amplification n
  generalize manyLocals n = bs at *
  refine ⟨h1, c77_crowded h2 (f := ⟨⟨0⟩, List.replicate n.toNat (.Num .Int32), []⟩) (by simp [h3]) (fun h => ?_)
    (by simpa using hT)⟩
  have := congrArg List.length h
  simp only [List.length_replicate, List.length_nil] at this
  exact hn (UInt32.toNat_inj.1 this)

/-- C77: where only the number of elements counts, exactly those modules are decoded that ask for no more than there is room for. -/
theorem c77_exact {evs : List Ev} {s' : Src} {m : Module} (h : decodeModule (⟨evs, []⟩ : Src) = (.ok m, s')) {T : Target} {a b : Nat}
    (h1 : ∀ k n, T.fits k n = true ↔ n ≤ a) (h2 : ∀ n, T.grows n = true ↔ n ≤ b) :
    Bounded.decodeModule (⟨evs, []⟩ : Src) T = (.ok m, s') ↔ (∀ n ∈ s'.log, n ≤ a) ∧ ∀ f ∈ m.funcs, f.locals.length ≤ b := by
  constructor
  · intro h3
    refine ⟨fun n hn => ?_, fun f hf => ?_⟩
    · obtain ⟨k, hk⟩ := (c77_needs (T := T) (evs := evs) (by rw [h3]; simp)).2 n (by rw [h]; exact hn)
      exact (h1 k n).1 hk
    · rcases c77_locals h3 f hf with h4 | h4
      · rw [h4]; exact Nat.zero_le _
      · exact (h2 _).1 h4
  · rintro ⟨h3, h4⟩
    letI := srcLedger
    rcases Bounded.tied_module.same (⟨evs, []⟩ : Src) T with h5 | ⟨_, ⟨k, n, h5, h6⟩ | ⟨_, h5⟩⟩
    · rw [h5.1, h]
    · rw [h] at h6
      have := (h1 k n).2 (h3 n h6)
      rw [this] at h5; cases h5
    · obtain ⟨f, hf, n, hn, hg⟩ := h5 m (by rw [h])
      rw [(h2 n).2 (Nat.le_trans hn (h4 f hf))] at hg; cases hg

/-! ### Where there is no room -/

section
variable {R : Type} [LawfulRead R] {T : Target}

/-- C77: a list that announces more elements than there is room for panics, whatever follows. -/
theorem c77_list {ε α : Type} [Bounded.Element α] {f : Bounded.Dec R ε α} {bs rest : Bytes} {n : UInt32} (hb : BU32 bs n)
    (hT : T.fits (Bounded.Element.kind α) n.toNat = false) {r : R} (ha : avail r = bs ++ rest) :
    (Bounded.decodeList f r T).1 = .panic := Bounded.Bursts.list hb hT r rest ha

/-- C77: the same for byte vectors. -/
theorem c77_byteVector {bs rest : Bytes} {n : UInt32} (hb : BU32 bs n) (hT : T.fits .byte n.toNat = false) {r : R}
    (ha : avail r = bs ++ rest) : (Bounded.decodeByteVector r T).1 = .panic := Bounded.Bursts.byteVector hb hT r rest ha

/-- What the list of a section holds; for a custom section, what its name consists of. -/
def elemOf : SectionKind → ElemKind
  | .Type => .recType | .Import => .importEntry | .Function => .typeIdx | .Table => .tableEntry | .Memory => .memType
  | .Tag => .tagType | .Global => .globalEntry | .Export => .exportEntry | .Element => .elemEntry | .Code => .codeEntry
  | .Data => .dataEntry | .Custom => .byte | .Start => .byte | .DataCount => .byte

theorem body_bursts {k : SectionKind} {st : LoopState} (hk : k ≠ .Start ∧ k ≠ .DataCount) {bs : Bytes} {n : UInt32} (hb : BU32 bs n)
    (hT : T.fits (elemOf k) n.toNat = false) : Bounded.Bursts (R := R) T (Bounded.decodeSectionBody k st) bs := by
  cases k with
  | Start => exact absurd rfl hk.1
  | DataCount => exact absurd rfl hk.2
  | Custom =>
    exact Bounded.Bursts.bind (.mapErr (.bind (.mapErr (.bind (.mapErr (Bounded.Bursts.byteVector hb hT))))))
  | _ => exact Bounded.Bursts.bind (.mapErr (.mapErr (Bounded.Bursts.list hb hT)))

/-- C77: wherever in a module a section begins that holds a list, or a name, a length for which there is no room makes `decode_module`
panic, whatever follows. -/
theorem c77_section {r : R} {secs : List Section} {k : SectionKind} {size n : UInt32} {bs rest : Bytes}
    (hat : AtSection (avail r) secs k size (bs ++ rest)) (hm : MayFollow secs k) (hk : k ≠ .Start ∧ k ≠ .DataCount)
    (hb : BU32 bs n) (hlen : bs.length ≤ size.toNat) (hT : T.fits (elemOf k) n.toNat = false) :
    (Bounded.decodeModule r T).1 = .panic := by
  have hacc : Acceptable secs := by
    generalize avail r = inp at hat
    cases hat; assumption
  refine Bounded.section_on hat ?_
  rintro pre rfl
  have hv : Wadec.Module.validateSectionKindExpected (R := R) (stateOf pre).module k = pure () := by
    rcases validate_kind (R := R) k (sorted_iff.2 hacc.order) with ⟨_, hv⟩ | ⟨hn, _⟩
    · exact hv
    · obtain ⟨x, rfl⟩ := exists_kind k
      exact absurd (mayFollow_iff.1 hm) (hn x rfl)
  have h1 := Bounded.Bursts.take (n := size.toNat) (body_bursts (R := Take R) (st := stateOf pre) hk hb hT) hlen
  intro r rest ha
  have h2 := h1 r rest ha
  simp only [Bounded.decodeSection, Bind.bind, Bounded.Dec.bind, Bounded.Module.validateSectionKindExpected, Bounded.Dec.lift, hv,
    Pure.pure, Dec.ok]
  generalize Bounded.Dec.withTake size.toNat (Bounded.decodeSectionBody k (stateOf pre)) r T = x at h2 ⊢
  obtain ⟨res, r'⟩ := x
  cases h2
  rfl

end

/-- a length that is asked for and for which there is no room, for elements of any kind -/
theorem panics_of {bs : Bytes} {n : Nat} (h : n ∈ (decodeModule (Src.ofBytes bs)).2.log) {T : Target} (hT : ∀ e, T.fits e n = false) :
    (Bounded.decodeModule (Src.ofBytes bs) T).1 = .panic := by
  unfold Src.ofBytes at h ⊢
  cases hp : (Bounded.decodeModule (⟨[.data bs], []⟩ : Src) T).1 with
  | panic => rfl
  | _ =>
    obtain ⟨e, he⟩ := (c77_needs (T := T) (evs := [.data bs]) (by rw [hp]; simp)).2 _ h
    rw [hT e] at he; cases he

/-- a length that is asked for and for which there are not enough bytes -/
theorem refused_of {bs : Bytes} {n : Nat} (h : n ∈ (decodeModule (Src.ofBytes bs)).2.log) (hn : bs.length < n) :
    ∃ e r', decodeModule (Src.ofBytes bs) = (.err e, r') := by
  rcases c29_total (Src.ofBytes bs) with ⟨m, r', hd⟩ | hd
  · exfalso
    obtain ⟨new, h2, h3⟩ := c65_accepted hd
    rw [hd] at h
    rw [show (Src.ofBytes bs).log = [] from rfl, List.nil_append] at h2
    have h4 : n ≤ new.sum := elem_le_sum (by rw [← h2]; exact h)
    simp only [Src.ofBytes, Src.volume] at h3
    omega
  · exact hd

/-- C77: so with addresses of 32 bits, where no vector has more than 2^31 - 1 bytes, these 15 bytes make `decode_module` panic; where
there is room, they are refused (the announced elements are missing). -/
theorem c77_narrow {T : Target} (hT : ∀ e n, 2 ^ 31 ≤ n → T.fits e n = false) (n : UInt32) (hn : 2 ^ 31 ≤ n.toNat) :
    (Bounded.decodeModule (Src.ofBytes (preamble ++ ([0x01, 0x05] ++ uEnc 5 n.toNat))) T).1 = .panic ∧
    ∃ e r', decodeModule (Src.ofBytes (preamble ++ ([0x01, 0x05] ++ uEnc 5 n.toNat))) = (.err e, r') := by
  have h1 := (c44_unbounded n).1
  have h2 := (c44_unbounded n).2
  generalize preamble ++ ([0x01, 0x05] ++ uEnc 5 n.toNat) = bs at h1 h2 ⊢
  exact ⟨panics_of h2 (fun e => hT e _ hn), refused_of h2 (by omega)⟩

/-! ### Instances -/

/-- A target with 32-bit addresses and elements of 24 bytes (locals of 8 bytes). -/
def narrow : Target := ⟨fun _ n => decide (24 * n ≤ 2 ^ 31 - 1), fun n => decide (8 * n ≤ 2 ^ 31 - 1)⟩

/-- A target with 64-bit addresses and elements of 200 bytes. -/
def wide : Target := ⟨fun _ n => decide (200 * n ≤ 2 ^ 63 - 1), fun n => decide (200 * (2 * n + 4) ≤ 2 ^ 63 - 1)⟩

example (r : Src) : Bounded.decodeModule r wide = decodeModule r :=
  c77_wide64 (size := fun _ => 200) (fun _ => by omega) (fun _ _ h => by simpa [wide] using h)
    (fun _ h => by simpa [wide] using h) r

example (r : Src) : (Bounded.decodeModule r wide).1 ≠ .panic := by
  rcases c77_total (T := wide) (fun _ _ h => by simp only [wide, decide_eq_true_eq]; omega)
    (fun _ h => by simp only [wide, decide_eq_true_eq]; omega) r with
    ⟨m, r', h⟩ | ⟨e, r', h⟩ <;> rw [h] <;> simp

/-- 15 bytes that are refused where there is room, and panic where there is none -/
example : (Bounded.decodeModule (Src.ofBytes (preamble ++ ([0x01, 0x05] ++ uEnc 5 2147483648))) narrow).1 = .panic :=
  (c77_narrow (T := narrow) (fun _ _ h => decide_eq_false (by omega)) 2147483648 (by decide)).1

/-- 24 bytes that are accepted where there is room, and panic where there is none -/
example : (Bounded.decodeModule (Src.ofBytes (manyLocals 268435456)) narrow).1 = .panic :=
  (c77_many (T := narrow) 268435456 (by decide) (by decide)).2

/-- a module with all kinds of sections, on the narrow target -/
example : ∃ r', Bounded.decodeModule (Src.ofBytes (preamble ++ bytesA)) narrow = (.ok (assemble secsA), r') :=
  c77_bytes bModA (fun _ n h => decide_eq_true (by
    have : (preamble ++ bytesA).length ≤ 1000 := by decide +kernel
    omega)) (by
    have : ∀ f ∈ (assemble secsA).funcs, f.locals.length ≤ 1000 := by decide +kernel
    intro f hf n hn
    have := this f hf
    exact decide_eq_true (by omega))

/-- the same module where there is room for one local only, and where there is room for vectors of 1000 elements and two locals -/
example {T : Target} (h2 : ∀ n, T.grows n = true ↔ n ≤ 1) :
    (Bounded.decodeModule (Src.ofBytes (preamble ++ bytesA)) T).1 = .panic := by
  obtain ⟨r', h⟩ := modA
  obtain ⟨f, hf, hl⟩ : ∃ f ∈ (assemble secsA).funcs, f.locals.length = 2 := by decide +kernel
  refine c77_crowded h hf (fun h0 => by rw [h0] at hl; cases hl) ?_
  cases hg : T.grows f.locals.length with
  | false => rfl
  | true => have := (h2 _).1 hg; omega

example {T : Target} (h1 : ∀ k n, T.fits k n = true ↔ n ≤ 1000) (h2 : ∀ n, T.grows n = true ↔ n ≤ 2) {m : Module} {s' : Src}
    (h : decodeModule (Src.ofBytes (preamble ++ bytesA)) = (.ok m, s')) :
    Bounded.decodeModule (Src.ofBytes (preamble ++ bytesA)) T = (.ok m, s') := by
  obtain ⟨r', hA⟩ := modA
  rw [hA] at h
  cases h
  refine (c77_exact (evs := [.data (preamble ++ bytesA)]) hA h1 h2).2 ⟨fun n hn => ?_, by decide +kernel⟩
  obtain ⟨new, h3, h4⟩ := c65_accepted hA
  rw [show (Src.ofBytes (preamble ++ bytesA)).log = [] from rfl, List.nil_append] at h3
  rw [h3] at hn
  have h5 := elem_le_sum hn
  have h6 : (preamble ++ bytesA).length ≤ 1000 := by decide +kernel
  simp only [Src.ofBytes, Src.volume] at h4
  omega

/-- the announced length of a name -/
example {r : Src} (ha : avail r = preamble ++ (0x00 :: ([0x05] ++ ([0x80, 0x80, 0x80, 0x80, 0x08] ++ [])))) :
    (Bounded.decodeModule r narrow).1 = .panic := by
  refine c77_section (secs := []) (k := .Custom) (size := 5) (n := 2147483648) (bs := [0x80, 0x80, 0x80, 0x80, 0x08]) (rest := []) ?_ ?_
    (by simp) ((c07_u32 _ _).2 ⟨5, by decide⟩) (by decide) (by decide)
  · rw [ha]
    have := AtSection.mk (bs := []) (b1 := [0x05]) (rest := [0x80, 0x80, 0x80, 0x80, 0x08] ++ []) (secs := []) (k := .Custom) (size := 5)
      .nil Acceptable.nil ((c07_u32 5 _).2 ⟨1, by decide⟩)
    simpa [sectionId] using this
  · show List.Sublist [] sectionOrder
    decide

end Wadec
