import Verif.Spec.Fault
import Verif.Proof.LebErr
import Verif.Proof.Types

/-! C55: the errors of the decoders, exactly.  Two calculi:

* `Errs d F`       : whenever `d` fails with `e`, `F` describes the input and `e`;
* `FailsIn d x bs e`: on every reader with exactly the bytes `bs` available, which end with `x`, `d`
  fails with `e`. -/

namespace Wadec

open LawfulRead Spec

variable {R ε ε' α β σ : Type} [LawfulRead R]

def Errs (d : Dec R ε α) (F : End → Bytes → ε → Prop) : Prop :=
  ∀ r e r', d r = (.err e, r') → F (fin r) (avail r) e

def FailsIn (d : Dec R ε α) (x : End) (bs : Bytes) (e : ε) : Prop :=
  ∀ r, avail r = bs → fin r = x → ∃ r', d r = (.err e, r')

section errs
variable {F : End → Bytes → ε → Prop}

theorem Errs.pure {v : α} : Errs (R := R) (Pure.pure v : Dec R ε α) F := by
  intro r e r' h; cases h

theorem Errs.panic : Errs (R := R) (Dec.panic : Dec R ε α) F := by
  intro r e r' h; cases h

theorem Errs.fuel : Errs (R := R) (Dec.outOfFuel : Dec R ε α) F := by
  intro r e r' h; cases h

theorem Errs.err {e : ε} (h : ∀ x bs, F x bs e) : Errs (R := R) (Dec.err e : Dec R ε α) F := by
  intro r e r' heq; cases heq; exact h _ _

theorem Errs.mono {d : Dec R ε α} {F' : End → Bytes → ε → Prop} (h : Errs d F')
    (h2 : ∀ x bs e, F' x bs e → F x bs e) : Errs d F :=
  fun r e r' heq => h2 _ _ _ (h r e r' heq)

theorem Errs.bind {d : Dec R ε α} {f : α → Dec R ε β} {P : Bytes → α → Prop} (hd : Errs d F)
    (hs : Sound d P) (hf : ∀ v b, P b v → Errs (f v) (fun x t e => F x (b ++ t) e)) :
    Errs (d >>= f) F := by
  intro r e r' h
  rcases Dec.bind_err h with h | ⟨v, r1, h1, h2⟩
  · exact hd _ _ _ h
  · obtain ⟨b, ha, hp⟩ := hs _ _ _ h1
    have := hf v b hp _ _ _ h2
    rw [adv_fin ha] at this
    rw [adv_avail ha]
    exact this

/-- Nothing fails after the last part. -/
theorem Errs.last {d : Dec R ε α} {f : α → β} (hd : Errs d F) :
    Errs (d >>= fun v => Pure.pure (f v)) F := by
  intro r e r' h
  rcases Dec.bind_err h with h | ⟨v, r1, h1, h2⟩
  · exact hd _ _ _ h
  · cases h2

theorem Errs.mapErr {d : Dec R ε' α} {g : ε' → ε} (h : Errs d (fun x b e => F x b (g e))) :
    Errs (d.mapErr g) F := by
  intro r e r' heq
  obtain ⟨e0, rfl, h'⟩ := Dec.mapErr_err heq
  exact h _ _ _ h'

theorem Errs.ite {c : Prop} [Decidable c] {a b : Dec R ε α} (h1 : c → Errs a F)
    (h2 : ¬c → Errs b F) : Errs (if c then a else b) F := by
  split <;> simp_all

theorem Errs.withChain {b : UInt8} {d : Dec (Chain R) ε α} {F : End → Bytes → ε → Prop}
    (h : Errs d F) : Errs (Dec.withChain b d) (fun x t e => F x (b :: t) e) := by
  intro r e r' heq
  obtain ⟨c, _, h2⟩ := Dec.withChain_err heq
  simpa [avail, fin] using h _ _ _ h2

theorem Errs.readExact {n : Nat} {F : End → Bytes → IoError → Prop}
    (h : ∀ x b, b.length < n → F x b x.toErr) : Errs (R := R) (Wadec.readExact n) F := by
  intro r e r' heq
  by_cases hl : (avail r).length < n
  · obtain ⟨r'', h'⟩ := readExact_err hl
    rw [h'] at heq; cases heq
    exact h _ _ hl
  · obtain ⟨r'', h1, h2⟩ := readExact_ok (r := r) (bs := (avail r).take n) (rest := (avail r).drop n)
      (by simp)
    rw [List.length_take, Nat.min_eq_left (by omega)] at h1
    rw [h1] at heq
    cases heq

theorem Errs.readByte {F : End → Bytes → IoError → Prop} (h : ∀ x, F x [] x.toErr) :
    Errs (R := R) Wadec.readByte F := by
  refine Errs.bind (Errs.readExact fun x b hl => ?_) Sound.readExact ?_
  · match b, hl with
    | [], _ => exact h x
  · rintro v b ⟨rfl, hl⟩
    match b, hl with
    | [b], _ => exact Errs.pure

/-- A byte, then the rest. -/
theorem Errs.byte {g : IoError → ε} {f : UInt8 → Dec R ε α} (h0 : ∀ x, F x [] (g x.toErr))
    (h : ∀ m, Errs (f m) (fun x t e => F x (m :: t) e)) :
    Errs (Wadec.readByte.mapErr g >>= f) F := by
  refine Errs.bind (Errs.mapErr (Errs.readByte h0)) (Sound.mapErr Sound.readByte) ?_
  rintro m _ rfl
  exact h m

theorem Errs.reserve {n : Nat} : Errs (R := R) (Dec.reserve n : Dec R ε Unit) F := by
  intro r e r' h; cases h

theorem Errs.reserve_bind {n : Nat} {f : Unit → Dec R ε α} (h : Errs (f ()) F) :
    Errs (Dec.reserve n >>= f) F := by
  refine Errs.bind Errs.reserve Sound.reserve ?_
  rintro _ _ rfl
  exact h

/-- The end of the bytes a `Take` delivers. -/
theorem take_fin {r : R} {n : Nat} :
    fin ({ limit := n, inner := r } : Take R) = limitEnd n (avail r) (fin r) := rfl

theorem Errs.withTake {n : Nat} {d : Dec (Take R) ε α} {F : End → Bytes → ε → Prop} (h : Errs d F) :
    Errs (Dec.withTake n d) (fun x b e => F (limitEnd n b x) (b.take n) e) := by
  intro r e r' heq
  simp only [Dec.withTake] at heq
  rcases hd : d { limit := n, inner := r } with ⟨res, t⟩
  rw [hd] at heq
  cases res <;> cases heq
  have := h _ _ _ hd
  exact this

end errs

section failsIn
variable {x : End} {bs : Bytes} {e : ε}

theorem FailsIn.err : FailsIn (R := R) (Dec.err e : Dec R ε α) x bs e :=
  fun r _ _ => ⟨r, rfl⟩

theorem FailsIn.bind1 {d : Dec R ε α} {f : α → Dec R ε β} (h : FailsIn d x bs e) :
    FailsIn (d >>= f) x bs e := by
  intro r ha hx
  obtain ⟨r', h'⟩ := h r ha hx
  exact ⟨r', by simp only [Bind.bind, Dec.bind, h']⟩

theorem FailsIn.bind2 {d : Dec R ε α} {f : α → Dec R ε β} {b1 b2 : Bytes} {v : α} (hd : Runs d b1 v)
    (hf : FailsIn (f v) x b2 e) : FailsIn (d >>= f) x (b1 ++ b2) e := by
  intro r ha hx
  obtain ⟨r1, h1, ha1⟩ := hd r b2 ha
  have := adv_avail ha1
  rw [ha, List.append_cancel_left_eq] at this
  obtain ⟨r2, h2⟩ := hf r1 this.symm (by rw [adv_fin ha1, hx])
  exact ⟨r2, by simp only [Bind.bind, Dec.bind, h1, h2]⟩

theorem FailsIn.mapErr {d : Dec R ε α} {g : ε → ε'} (h : FailsIn d x bs e) :
    FailsIn (d.mapErr g) x bs (g e) := by
  intro r ha hx
  obtain ⟨r', h'⟩ := h r ha hx
  exact ⟨r', by simp only [Dec.mapErr, h']⟩

theorem FailsIn.ite_pos {c : Prop} [Decidable c] {a b : Dec R ε α} (h : c) (hd : FailsIn a x bs e) :
    FailsIn (if c then a else b) x bs e := by
  rw [if_pos h]; exact hd

theorem FailsIn.ite_neg {c : Prop} [Decidable c] {a b : Dec R ε α} (h : ¬c) (hd : FailsIn b x bs e) :
    FailsIn (if c then a else b) x bs e := by
  rw [if_neg h]; exact hd

theorem FailsIn.withChain {b : UInt8} {d : Dec (Chain R) ε α} (h : FailsIn d x (b :: bs) e) :
    FailsIn (Dec.withChain b d) x bs e := by
  intro r ha hx
  obtain ⟨c, h1⟩ := h { first := [b], inner := r } (by simp [avail, ha]) hx
  exact ⟨c.inner, by simp only [Dec.withChain, h1]⟩

theorem FailsIn.withTake {n : Nat} {d : Dec (Take R) ε α}
    (h : FailsIn d (limitEnd n bs x) (bs.take n) e) : FailsIn (Dec.withTake n d) x bs e := by
  intro r ha hx
  obtain ⟨t, h1⟩ := h { limit := n, inner := r } (by simp only [avail, ha]) (by rw [take_fin, ha, hx])
  exact ⟨t.inner, by simp only [Dec.withTake, h1]⟩

theorem FailsIn.readExact {n : Nat} (h : bs.length < n) :
    FailsIn (R := R) (Wadec.readExact n) x bs x.toErr := by
  intro r ha hx
  obtain ⟨r', h'⟩ := readExact_err (r := r) (n := n) (by rw [ha]; exact h)
  exact ⟨r', by rw [h', hx]⟩

theorem FailsIn.readByte : FailsIn (R := R) Wadec.readByte x [] x.toErr :=
  FailsIn.bind1 (FailsIn.readExact (by simp))

theorem FailsIn.noByte {g : IoError → ε} {f : UInt8 → Dec R ε α} :
    FailsIn (Wadec.readByte.mapErr g >>= f) x [] (g x.toErr) :=
  FailsIn.bind1 (FailsIn.mapErr FailsIn.readByte)

theorem FailsIn.byte {g : IoError → ε} {f : UInt8 → Dec R ε α} {m : UInt8} (h : FailsIn (f m) x bs e) :
    FailsIn (Wadec.readByte.mapErr g >>= f) x (m :: bs) e :=
  FailsIn.bind2 (b1 := [m]) (Runs.mapErr Runs.readByte) h

theorem FailsIn.reserve_bind {n : Nat} {f : Unit → Dec R ε α} (h : FailsIn (f ()) x bs e) :
    FailsIn (Dec.reserve n >>= f) x bs e :=
  FailsIn.bind2 (b1 := []) Runs.reserve h

theorem FailsIn.of_eq {d : Dec R ε α} {bs' : Bytes} (h : FailsIn d x bs' e) (hb : bs = bs') :
    FailsIn d x bs e := hb ▸ h

end failsIn

/-- The decoder fails exactly as described, with exactly the errors described. -/
def Faults (d : Dec R ε α) (F : End → Bytes → ε → Prop) : Prop :=
  ∀ r e, (∃ r', d r = (.err e, r')) ↔ F (fin r) (avail r) e

theorem Faults.mk {d : Dec R ε α} {F : End → Bytes → ε → Prop} (h1 : Errs d F)
    (h2 : ∀ x bs e, F x bs e → FailsIn d x bs e) : Faults d F :=
  fun r e => ⟨fun ⟨r', h⟩ => h1 r e r' h, fun h => h2 _ _ e h r rfl rfl⟩

theorem Faults.errs {d : Dec R ε α} {F : End → Bytes → ε → Prop} (h : Faults d F) : Errs d F :=
  fun r e r' heq => (h r e).1 ⟨r', heq⟩

theorem Faults.fails {d : Dec R ε α} {F : End → Bytes → ε → Prop} (h : Faults d F) {x : End} {bs : Bytes}
    {e : ε} (hf : F x bs e) : FailsIn d x bs e := by
  intro r ha hx
  exact (h r e).2 (by rw [ha, hx]; exact hf)

/-! ### Integers and floats -/

theorem take_append_drop' {α : Type} (n : Nat) (l : List α) : l = l.take n ++ l.drop n := by simp

theorem u32_faults : Faults (decodeU32 : Dec R _ _) FU32 := by
  have C := decodeU32_classifies (R := R)
  intro r e
  constructor
  · rintro ⟨r', h⟩
    rcases C.only _ _ _ h with ⟨x, rfl⟩ | rfl | rfl
    · obtain ⟨h1, h2, rfl⟩ := (C.io_iff r x).1 ⟨r', h⟩
      exact .short h1 h2
    · obtain ⟨h1, h2⟩ := (C.long_iff r).1 ⟨r', h⟩
      rw [take_append_drop' 5 (avail r)]
      exact .long h2 (by simp [h1])
    · obtain ⟨bs, rest, h1, h2, h3, h4⟩ := (C.bad_iff r).1 ⟨r', h⟩
      rw [h1]
      exact .range h2 h3 (by omega)
  · intro h
    generalize hb : avail r = bs at h
    cases h with
    | short h1 h2 => exact (C.io_iff r _).2 ⟨hb ▸ h1, hb ▸ h2, rfl⟩
    | long h1 h2 => exact (C.long_iff r).2 (by rw [hb]; exact ⟨by simp [h2], by rw [← h2]; simpa using h1⟩)
    | range h1 h2 h3 => exact (C.bad_iff r).2 ⟨_, _, hb, h1, h2, by omega⟩

theorem u64_faults : Faults (decodeU64 : Dec R _ _) FU64 := by
  have C := decodeU64_classifies (R := R)
  intro r e
  constructor
  · rintro ⟨r', h⟩
    rcases C.only _ _ _ h with ⟨x, rfl⟩ | rfl | rfl
    · obtain ⟨h1, h2, rfl⟩ := (C.io_iff r x).1 ⟨r', h⟩
      exact .short h1 h2
    · obtain ⟨h1, h2⟩ := (C.long_iff r).1 ⟨r', h⟩
      rw [take_append_drop' 10 (avail r)]
      exact .long h2 (by simp [h1])
    · obtain ⟨bs, rest, h1, h2, h3, h4⟩ := (C.bad_iff r).1 ⟨r', h⟩
      rw [h1]
      exact .range h2 h3 (by omega)
  · intro h
    generalize hb : avail r = bs at h
    cases h with
    | short h1 h2 => exact (C.io_iff r _).2 ⟨hb ▸ h1, hb ▸ h2, rfl⟩
    | long h1 h2 => exact (C.long_iff r).2 (by rw [hb]; exact ⟨by simp [h2], by rw [← h2]; simpa using h1⟩)
    | range h1 h2 h3 => exact (C.bad_iff r).2 ⟨_, _, hb, h1, h2, by omega⟩

theorem i32_faults : Faults (decodeI32 : Dec R _ _) FI32 := by
  have C := decodeI32_classifies (R := R)
  intro r e
  constructor
  · rintro ⟨r', h⟩
    rcases C.only _ _ _ h with ⟨x, rfl⟩ | rfl | rfl
    · obtain ⟨h1, h2, rfl⟩ := (C.io_iff r x).1 ⟨r', h⟩
      exact .short h1 h2
    · obtain ⟨h1, h2⟩ := (C.long_iff r).1 ⟨r', h⟩
      rw [take_append_drop' 5 (avail r)]
      exact .long h2 (by simp [h1])
    · obtain ⟨bs, rest, h1, h2, h3, h4⟩ := (C.bad_iff r).1 ⟨r', h⟩
      rw [h1]
      exact .range h2 h3 h4
  · intro h
    generalize hb : avail r = bs at h
    cases h with
    | short h1 h2 => exact (C.io_iff r _).2 ⟨hb ▸ h1, hb ▸ h2, rfl⟩
    | long h1 h2 => exact (C.long_iff r).2 (by rw [hb]; exact ⟨by simp [h2], by rw [← h2]; simpa using h1⟩)
    | range h1 h2 h3 => exact (C.bad_iff r).2 ⟨_, _, hb, h1, h2, h3⟩

theorem i64_faults : Faults (decodeI64 : Dec R _ _) FI64 := by
  have C := decodeI64_classifies (R := R)
  intro r e
  constructor
  · rintro ⟨r', h⟩
    rcases C.only _ _ _ h with ⟨x, rfl⟩ | rfl | rfl
    · obtain ⟨h1, h2, rfl⟩ := (C.io_iff r x).1 ⟨r', h⟩
      exact .short h1 h2
    · obtain ⟨h1, h2⟩ := (C.long_iff r).1 ⟨r', h⟩
      rw [take_append_drop' 10 (avail r)]
      exact .long h2 (by simp [h1])
    · obtain ⟨bs, rest, h1, h2, h3, h4⟩ := (C.bad_iff r).1 ⟨r', h⟩
      rw [h1]
      exact .range h2 h3 h4
  · intro h
    generalize hb : avail r = bs at h
    cases h with
    | short h1 h2 => exact (C.io_iff r _).2 ⟨hb ▸ h1, hb ▸ h2, rfl⟩
    | long h1 h2 => exact (C.long_iff r).2 (by rw [hb]; exact ⟨by simp [h2], by rw [← h2]; simpa using h1⟩)
    | range h1 h2 h3 => exact (C.bad_iff r).2 ⟨_, _, hb, h1, h2, h3⟩

theorem s33_faults : Faults (decodeS33 : Dec R _ _) FS33 := by
  have C := decodeS33_classifies (R := R)
  intro r e
  constructor
  · rintro ⟨r', h⟩
    rcases C.only _ _ _ h with ⟨x, rfl⟩ | rfl | rfl
    · obtain ⟨h1, h2, rfl⟩ := (C.io_iff r x).1 ⟨r', h⟩
      exact .short h1 h2
    · obtain ⟨h1, h2⟩ := (C.long_iff r).1 ⟨r', h⟩
      rw [take_append_drop' 5 (avail r)]
      exact .long h2 (by simp [h1])
    · obtain ⟨bs, rest, h1, h2, h3, h4⟩ := (C.bad_iff r).1 ⟨r', h⟩
      rw [h1]
      exact .range h2 h3 h4
  · intro h
    generalize hb : avail r = bs at h
    cases h with
    | short h1 h2 => exact (C.io_iff r _).2 ⟨hb ▸ h1, hb ▸ h2, rfl⟩
    | long h1 h2 => exact (C.long_iff r).2 (by rw [hb]; exact ⟨by simp [h2], by rw [← h2]; simpa using h1⟩)
    | range h1 h2 h3 => exact (C.bad_iff r).2 ⟨_, _, hb, h1, h2, h3⟩

theorem bytes_faults {n : Nat} : Faults (readExact n : Dec R _ _) (FBytes n) := by
  refine Faults.mk (Errs.readExact fun x b h => .short h) ?_
  rintro x bs e ⟨h⟩
  exact FailsIn.readExact h

theorem f32_faults : Faults (decodeF32 : Dec R _ _) FF32 := by
  refine Faults.mk (Errs.last (Errs.mapErr (Errs.mono bytes_faults.errs fun x b e h => .mk h))) ?_
  rintro x bs e ⟨h⟩
  exact FailsIn.bind1 (FailsIn.mapErr (bytes_faults.fails h))

theorem f64_faults : Faults (decodeF64 : Dec R _ _) FF64 := by
  refine Faults.mk (Errs.last (Errs.mapErr (Errs.mono bytes_faults.errs fun x b e h => .mk h))) ?_
  rintro x bs e ⟨h⟩
  exact FailsIn.bind1 (FailsIn.mapErr (bytes_faults.fails h))

theorem TypeIdx.faults : Faults (TypeIdx.decode : Dec R _ _) FTypeIdx := by
  refine Faults.mk (Errs.last (Errs.mapErr (Errs.mono u32_faults.errs fun x b e h => .mk h))) ?_
  rintro x bs e ⟨h⟩
  exact FailsIn.bind1 (FailsIn.mapErr (u32_faults.fails h))

theorem FuncIdx.faults : Faults (FuncIdx.decode : Dec R _ _) FFuncIdx := by
  refine Faults.mk (Errs.last (Errs.mapErr (Errs.mono u32_faults.errs fun x b e h => .mk h))) ?_
  rintro x bs e ⟨h⟩
  exact FailsIn.bind1 (FailsIn.mapErr (u32_faults.fails h))

theorem TableIdx.faults : Faults (TableIdx.decode : Dec R _ _) FTableIdx := by
  refine Faults.mk (Errs.last (Errs.mapErr (Errs.mono u32_faults.errs fun x b e h => .mk h))) ?_
  rintro x bs e ⟨h⟩
  exact FailsIn.bind1 (FailsIn.mapErr (u32_faults.fails h))

theorem MemIdx.faults : Faults (MemIdx.decode : Dec R _ _) FMemIdx := by
  refine Faults.mk (Errs.last (Errs.mapErr (Errs.mono u32_faults.errs fun x b e h => .mk h))) ?_
  rintro x bs e ⟨h⟩
  exact FailsIn.bind1 (FailsIn.mapErr (u32_faults.fails h))

theorem GlobalIdx.faults : Faults (GlobalIdx.decode : Dec R _ _) FGlobalIdx := by
  refine Faults.mk (Errs.last (Errs.mapErr (Errs.mono u32_faults.errs fun x b e h => .mk h))) ?_
  rintro x bs e ⟨h⟩
  exact FailsIn.bind1 (FailsIn.mapErr (u32_faults.fails h))

theorem ElemIdx.faults : Faults (ElemIdx.decode : Dec R _ _) FElemIdx := by
  refine Faults.mk (Errs.last (Errs.mapErr (Errs.mono u32_faults.errs fun x b e h => .mk h))) ?_
  rintro x bs e ⟨h⟩
  exact FailsIn.bind1 (FailsIn.mapErr (u32_faults.fails h))

theorem DataIdx.faults : Faults (DataIdx.decode : Dec R _ _) FDataIdx := by
  refine Faults.mk (Errs.last (Errs.mapErr (Errs.mono u32_faults.errs fun x b e h => .mk h))) ?_
  rintro x bs e ⟨h⟩
  exact FailsIn.bind1 (FailsIn.mapErr (u32_faults.fails h))

theorem LocalIdx.faults : Faults (LocalIdx.decode : Dec R _ _) FLocalIdx := by
  refine Faults.mk (Errs.last (Errs.mapErr (Errs.mono u32_faults.errs fun x b e h => .mk h))) ?_
  rintro x bs e ⟨h⟩
  exact FailsIn.bind1 (FailsIn.mapErr (u32_faults.fails h))

theorem LabelIdx.faults : Faults (LabelIdx.decode : Dec R _ _) FLabelIdx := by
  refine Faults.mk (Errs.last (Errs.mapErr (Errs.mono u32_faults.errs fun x b e h => .mk h))) ?_
  rintro x bs e ⟨h⟩
  exact FailsIn.bind1 (FailsIn.mapErr (u32_faults.fails h))

theorem TagIdx.faults : Faults (TagIdx.decode : Dec R _ _) FTagIdx := by
  refine Faults.mk (Errs.last (Errs.mapErr (Errs.mono u32_faults.errs fun x b e h => .mk h))) ?_
  rintro x bs e ⟨h⟩
  exact FailsIn.bind1 (FailsIn.mapErr (u32_faults.fails h))

/-! ### Lists -/

theorem pos_succ (i : UInt32) (k : Nat) : i + 1 + UInt32.ofNat k = i + UInt32.ofNat (k + 1) := by
  rw [UInt32.ofNat_add, UInt32.add_assoc, UInt32.add_comm (UInt32.ofNat k)]
  rfl

/-- The loop of a list with a stateful element decoder. -/
theorem listLoop_errs {P : σ → Bytes → α → σ → Prop} {f : σ → Dec R ε (α × σ)}
    {F : σ → End → Bytes → ε → Prop} (hs : ∀ st, Sound (f st) (fun b v => P st b v.1 v.2))
    (hf : ∀ st, Errs (f st) (F st)) :
    ∀ (n : Nat) (i : UInt32) (st : σ) (items : List α),
    Errs (decodeListLoop f n i st items) (fun x bs e => ∃ c l st' t e', bs = c ++ t ∧
      Steps P st c l st' ∧ l.length < n ∧ F st' x t e' ∧
      e = .ParseElement (i + UInt32.ofNat l.length) e') := by
  intro n
  induction n with
  | zero => intro i st items; exact Errs.pure
  | succ n ih =>
    intro i st items
    refine Errs.bind (Errs.mapErr (Errs.mono (hf st) ?_)) (Sound.mapErr (hs st)) ?_
    · intro x b e h
      exact ⟨[], [], st, b, e, rfl, .nil, by simp, h, by simp⟩
    · rintro ⟨v, st'⟩ b hP
      refine Errs.mono (ih (i + 1) st' (items ++ [v])) ?_
      rintro x t e ⟨c, l, st2, t', e', rfl, h1, h2, h3, rfl⟩
      refine ⟨b ++ c, v :: l, st2, t', e', by simp, .cons hP h1, by simp; omega, h3, ?_⟩
      rw [pos_succ]; rfl

theorem listLoop_failsIn {P : σ → Bytes → α → σ → Prop} {f : σ → Dec R ε (α × σ)}
    (hr : ∀ st b v st', P st b v st' → Runs (f st) b (v, st')) {x : End} {t : Bytes} {e : ε} {st' : σ}
    (hf : FailsIn (f st') x t e) :
    ∀ (l : List α) (n : Nat) (i : UInt32) (st : σ) (items : List α) (c : Bytes), l.length < n →
      Steps P st c l st' →
      FailsIn (decodeListLoop f n i st items) x (c ++ t) (.ParseElement (i + UInt32.ofNat l.length) e) := by
  intro l
  induction l with
  | nil =>
    intro n i st items c hn h
    cases h
    match n, hn with
    | n + 1, _ =>
      have e1 : i + UInt32.ofNat ([] : List α).length = i := by simp
      rw [e1]
      exact FailsIn.bind1 (FailsIn.mapErr (g := fun err => DecodeListError.ParseElement i err) hf)
  | cons v l ih =>
    intro n i st items c hn h
    match n, hn with
    | n + 1, hn =>
      cases h with
      | @cons _ st1 _ b bs _ _ h1 h2 =>
        rw [List.append_assoc]
        refine FailsIn.bind2 (Runs.mapErr (hr _ _ _ _ h1)) ?_
        have := ih n (i + 1) st1 (items ++ [v]) bs (by simpa using hn) h2
        rw [pos_succ] at this
        exact this

theorem list_faults {B : Bytes → α → Prop} {F : End → Bytes → ε → Prop} {f : Dec R ε α}
    (hs : Sound f B) (hr : ∀ b v, B b v → Runs f b v) (hf : Faults f F) :
    Faults (decodeList f) (FList F B) := by
  refine Faults.mk ?_ ?_
  · refine Errs.last ?_
    refine Errs.bind (Errs.mapErr (Errs.mono u32_faults.errs fun x b e h => .length h))
      (Sound.mapErr decodeU32_sound) fun n b hn => ?_
    refine Errs.reserve_bind ?_
    refine Errs.mono (listLoop_errs (P := fun _ b x _ => B b x) (F := fun _ => F) (fun _ => ?_)
      (fun _ => Errs.last hf.errs) _ _ _ _) ?_
    · exact Sound.bind hs fun x b h => Sound.pure (by simpa using h)
    · rintro x _ e ⟨c, l, st', t, e', rfl, h1, h2, h3, rfl⟩
      refine .element hn h1.toBSeq ?_ h2 h3
      have := UInt32.toNat_lt n
      simp; omega
  · intro x bs e h
    refine FailsIn.bind1 ?_
    cases h with
    | length h => exact FailsIn.bind1 (FailsIn.mapErr (u32_faults.fails h))
    | @element b c t e n i l h1 h2 h3 h4 h5 =>
      refine FailsIn.bind2 (Runs.mapErr (decodeU32_runs h1)) (FailsIn.reserve_bind ?_)
      have := listLoop_failsIn (P := fun (_ : Unit) b x (_ : Unit) => B b x)
        (f := fun (_ : Unit) => do let x ← f; pure (x, ()))
        (fun _ b v _ hb => Runs.bind_pure (f := fun x => (x, ())) (hr b v hb)) (st' := ())
        (FailsIn.bind1 (hf.fails h5)) l n.toNat 0 () [] c h4 h2.toSteps
      have hi : 0 + UInt32.ofNat l.length = i := by
        rw [← h3]; simp
      rw [hi] at this
      exact this

/-! ### Byte vectors -/

theorem byteVec_faults : Faults (decodeByteVector : Dec R _ _) FByteVec := by
  refine Faults.mk ?_ ?_
  · refine Errs.bind (Errs.mapErr (Errs.mono u32_faults.errs fun x b e h => .length h))
      (Sound.mapErr decodeU32_sound) fun n b hn => ?_
    exact Errs.reserve_bind (Errs.mapErr (Errs.mono bytes_faults.errs fun x t e h => .elements hn h))
  · intro x bs e h
    cases h with
    | length h => exact FailsIn.bind1 (FailsIn.mapErr (u32_faults.fails h))
    | elements h1 h2 =>
      exact FailsIn.bind2 (Runs.mapErr (decodeU32_runs h1)) (FailsIn.reserve_bind
        (FailsIn.mapErr (bytes_faults.fails h2)))

end Wadec
