import Verif.Proof.Leb
import Verif.Proof.Utf8
import Verif.Model.Helpers

/-! Indices, floats, lists, byte vectors, names. -/

namespace Wadec

open LawfulRead Spec

section
variable {R S : Type} [LawfulRead R] [LawfulRead S] {L : Nat}

/-- Tactic for `G.mapErr` side conditions: constructors preserve the root cause. -/
macro "gmap" t:term : term => `(G.mapErr $t (fun _ => rfl) (fun _ => id))

/-! ### Indices -/

theorem TypeIdx.sound : Sound (R := R) TypeIdx.decode BTypeIdx := by
  refine Sound.bind (Sound.mapErr decodeU32_sound) fun x b1 h => Sound.pure ?_
  simpa [BTypeIdx] using h
theorem FuncIdx.sound : Sound (R := R) FuncIdx.decode BFuncIdx := by
  refine Sound.bind (Sound.mapErr decodeU32_sound) fun x b1 h => Sound.pure ?_
  simpa [BFuncIdx] using h
theorem TableIdx.sound : Sound (R := R) TableIdx.decode BTableIdx := by
  refine Sound.bind (Sound.mapErr decodeU32_sound) fun x b1 h => Sound.pure ?_
  simpa [BTableIdx] using h
theorem MemIdx.sound : Sound (R := R) MemIdx.decode BMemIdx := by
  refine Sound.bind (Sound.mapErr decodeU32_sound) fun x b1 h => Sound.pure ?_
  simpa [BMemIdx] using h
theorem GlobalIdx.sound : Sound (R := R) GlobalIdx.decode BGlobalIdx := by
  refine Sound.bind (Sound.mapErr decodeU32_sound) fun x b1 h => Sound.pure ?_
  simpa [BGlobalIdx] using h
theorem ElemIdx.sound : Sound (R := R) ElemIdx.decode BElemIdx := by
  refine Sound.bind (Sound.mapErr decodeU32_sound) fun x b1 h => Sound.pure ?_
  simpa [BElemIdx] using h
theorem DataIdx.sound : Sound (R := R) DataIdx.decode BDataIdx := by
  refine Sound.bind (Sound.mapErr decodeU32_sound) fun x b1 h => Sound.pure ?_
  simpa [BDataIdx] using h
theorem LocalIdx.sound : Sound (R := R) LocalIdx.decode BLocalIdx := by
  refine Sound.bind (Sound.mapErr decodeU32_sound) fun x b1 h => Sound.pure ?_
  simpa [BLocalIdx] using h
theorem LabelIdx.sound : Sound (R := R) LabelIdx.decode BLabelIdx := by
  refine Sound.bind (Sound.mapErr decodeU32_sound) fun x b1 h => Sound.pure ?_
  simpa [BLabelIdx] using h
theorem TagIdx.sound : Sound (R := R) TagIdx.decode BTagIdx := by
  refine Sound.bind (Sound.mapErr decodeU32_sound) fun x b1 h => Sound.pure ?_
  simpa [BTagIdx] using h

theorem TypeIdx.runs {bs x} (h : BTypeIdx bs x) : Runs (R := R) TypeIdx.decode bs x :=
  Runs.bind_pure (f := TypeIdx.mk) (Runs.mapErr (decodeU32_runs h))
theorem FuncIdx.runs {bs x} (h : BFuncIdx bs x) : Runs (R := R) FuncIdx.decode bs x :=
  Runs.bind_pure (f := FuncIdx.mk) (Runs.mapErr (decodeU32_runs h))
theorem TableIdx.runs {bs x} (h : BTableIdx bs x) : Runs (R := R) TableIdx.decode bs x :=
  Runs.bind_pure (f := TableIdx.mk) (Runs.mapErr (decodeU32_runs h))
theorem MemIdx.runs {bs x} (h : BMemIdx bs x) : Runs (R := R) MemIdx.decode bs x :=
  Runs.bind_pure (f := MemIdx.mk) (Runs.mapErr (decodeU32_runs h))
theorem GlobalIdx.runs {bs x} (h : BGlobalIdx bs x) : Runs (R := R) GlobalIdx.decode bs x :=
  Runs.bind_pure (f := GlobalIdx.mk) (Runs.mapErr (decodeU32_runs h))
theorem ElemIdx.runs {bs x} (h : BElemIdx bs x) : Runs (R := R) ElemIdx.decode bs x :=
  Runs.bind_pure (f := ElemIdx.mk) (Runs.mapErr (decodeU32_runs h))
theorem DataIdx.runs {bs x} (h : BDataIdx bs x) : Runs (R := R) DataIdx.decode bs x :=
  Runs.bind_pure (f := DataIdx.mk) (Runs.mapErr (decodeU32_runs h))
theorem LocalIdx.runs {bs x} (h : BLocalIdx bs x) : Runs (R := R) LocalIdx.decode bs x :=
  Runs.bind_pure (f := LocalIdx.mk) (Runs.mapErr (decodeU32_runs h))
theorem LabelIdx.runs {bs x} (h : BLabelIdx bs x) : Runs (R := R) LabelIdx.decode bs x :=
  Runs.bind_pure (f := LabelIdx.mk) (Runs.mapErr (decodeU32_runs h))
theorem TagIdx.runs {bs x} (h : BTagIdx bs x) : Runs (R := R) TagIdx.decode bs x :=
  Runs.bind_pure (f := TagIdx.mk) (Runs.mapErr (decodeU32_runs h))

theorem TypeIdx.g : G 1 L (TypeIdx.decode : Dec R _ _) (TypeIdx.decode : Dec S _ _) :=
  G.bind (gmap decodeU32_g) (fun _ => G.pure) (by omega)
theorem FuncIdx.g : G 1 L (FuncIdx.decode : Dec R _ _) (FuncIdx.decode : Dec S _ _) :=
  G.bind (gmap decodeU32_g) (fun _ => G.pure) (by omega)
theorem TableIdx.g : G 1 L (TableIdx.decode : Dec R _ _) (TableIdx.decode : Dec S _ _) :=
  G.bind (gmap decodeU32_g) (fun _ => G.pure) (by omega)
theorem MemIdx.g : G 1 L (MemIdx.decode : Dec R _ _) (MemIdx.decode : Dec S _ _) :=
  G.bind (gmap decodeU32_g) (fun _ => G.pure) (by omega)
theorem GlobalIdx.g : G 1 L (GlobalIdx.decode : Dec R _ _) (GlobalIdx.decode : Dec S _ _) :=
  G.bind (gmap decodeU32_g) (fun _ => G.pure) (by omega)
theorem ElemIdx.g : G 1 L (ElemIdx.decode : Dec R _ _) (ElemIdx.decode : Dec S _ _) :=
  G.bind (gmap decodeU32_g) (fun _ => G.pure) (by omega)
theorem DataIdx.g : G 1 L (DataIdx.decode : Dec R _ _) (DataIdx.decode : Dec S _ _) :=
  G.bind (gmap decodeU32_g) (fun _ => G.pure) (by omega)
theorem LocalIdx.g : G 1 L (LocalIdx.decode : Dec R _ _) (LocalIdx.decode : Dec S _ _) :=
  G.bind (gmap decodeU32_g) (fun _ => G.pure) (by omega)
theorem LabelIdx.g : G 1 L (LabelIdx.decode : Dec R _ _) (LabelIdx.decode : Dec S _ _) :=
  G.bind (gmap decodeU32_g) (fun _ => G.pure) (by omega)
theorem TagIdx.g : G 1 L (TagIdx.decode : Dec R _ _) (TagIdx.decode : Dec S _ _) :=
  G.bind (gmap decodeU32_g) (fun _ => G.pure) (by omega)

/-! ### Floats -/

theorem leBytes_succ (k n : Nat) :
    leBytes (k + 1) n = UInt8.ofNat n :: leBytes k (n / 256) := by
  unfold leBytes
  rw [List.range_succ_eq_map, List.map_cons, List.map_map]
  simp only [Nat.pow_zero, Nat.div_one, List.cons.injEq, true_and]
  apply List.map_congr_left
  intro i _
  simp only [Function.comp]
  rw [Nat.div_div_eq_div_mul, Nat.pow_succ, Nat.mul_comm]

/-- `from_le_bytes` inverts the little-endian digits. -/
theorem leNat_leBytes (k n : Nat) (h : n < 256 ^ k) : leNat (leBytes k n) = n := by
  induction k generalizing n with
  | zero => simp at h; subst h; rfl
  | succ k ih =>
    rw [leBytes_succ, leNat, ih (n / 256) (by
      rw [Nat.pow_succ] at h
      exact Nat.div_lt_of_lt_mul (by rw [Nat.mul_comm]; exact h))]
    simp [UInt8.toNat_ofNat']
    omega

theorem leNat_lt : ∀ bs : List UInt8, leNat bs < 256 ^ bs.length := by
  intro bs
  induction bs with
  | nil => simp [leNat]
  | cons b bs ih =>
    have := UInt8.toNat_lt b
    simp only [leNat, List.length_cons, Nat.pow_succ]
    omega

theorem leBytes_leNat : ∀ bs : List UInt8, leBytes bs.length (leNat bs) = bs := by
  intro bs
  induction bs with
  | nil => rfl
  | cons b bs ih =>
    have := UInt8.toNat_lt b
    rw [List.length_cons, leBytes_succ, leNat]
    have h1 : (b.toNat + 256 * leNat bs) / 256 = leNat bs := by omega
    rw [h1, ih]
    congr 1
    apply UInt8.toNat_inj.mp
    rw [UInt8.toNat_ofNat']
    omega

theorem length_leBytes (k n : Nat) : (leBytes k n).length = k := by simp [leBytes]

theorem decodeF32_sound : Sound (R := R) decodeF32 BF32 := by
  refine Sound.bind (Sound.mapErr Sound.readExact) ?_
  rintro _ x ⟨rfl, hl⟩
  refine Sound.pure ?_
  have := leNat_lt x
  rw [hl] at this
  have h4 := leBytes_leNat x
  rw [hl] at h4
  simp only [List.append_nil, BF32]
  rw [UInt32.toNat_ofNat', Nat.mod_eq_of_lt (by omega), h4]

theorem decodeF64_sound : Sound (R := R) decodeF64 BF64 := by
  refine Sound.bind (Sound.mapErr Sound.readExact) ?_
  rintro _ x ⟨rfl, hl⟩
  refine Sound.pure ?_
  have := leNat_lt x
  rw [hl] at this
  have h4 := leBytes_leNat x
  rw [hl] at h4
  simp only [List.append_nil, BF64]
  rw [UInt64.toNat_ofNat', Nat.mod_eq_of_lt (by omega), h4]

theorem decodeF32_runs {bs v} (h : BF32 bs v) : Runs (R := R) decodeF32 bs v := by
  have h1 := Runs.mapErr (R := R) (f := DecodeFloat32Error.ReadPayload)
    (Runs.readExact (n := 4) (h ▸ length_leBytes 4 _))
  have h2 := Runs.bind_pure (f := fun buf => UInt32.ofNat (leNat buf)) h1
  have : UInt32.ofNat (leNat bs) = v := by
    rw [h, leNat_leBytes _ _ (by have := UInt32.toNat_lt v; omega)]; simp
  rw [this] at h2
  exact h2

theorem decodeF64_runs {bs v} (h : BF64 bs v) : Runs (R := R) decodeF64 bs v := by
  have h1 := Runs.mapErr (R := R) (f := DecodeFloat64Error.ReadPayload)
    (Runs.readExact (n := 8) (h ▸ length_leBytes 8 _))
  have h2 := Runs.bind_pure (f := fun buf => UInt64.ofNat (leNat buf)) h1
  have : UInt64.ofNat (leNat bs) = v := by
    rw [h, leNat_leBytes _ _ (by have := UInt64.toNat_lt v; omega)]; simp
  rw [this] at h2
  exact h2

theorem decodeF32_g : G 4 L (decodeF32 : Dec R _ _) (decodeF32 : Dec S _ _) :=
  G.bind (gmap G.readExact) (fun _ => G.pure) (by omega)
theorem decodeF64_g : G 8 L (decodeF64 : Dec R _ _) (decodeF64 : Dec S _ _) :=
  G.bind (gmap G.readExact) (fun _ => G.pure) (by omega)

/-! ### Lists -/

/-- A run of a stateful element decoder: `P st b x st'` describes one element. -/
inductive Steps {α σ : Type} (P : σ → List UInt8 → α → σ → Prop) :
    σ → List UInt8 → List α → σ → Prop
  | nil {st : σ} : Steps P st [] [] st
  | cons {st st' st'' : σ} {b bs : List UInt8} {x : α} {xs : List α} : P st b x st' →
      Steps P st' bs xs st'' → Steps P st (b ++ bs) (x :: xs) st''

variable {ε α σ : Type}

theorem listLoop_sound {P : σ → List UInt8 → α → σ → Prop} {f : σ → Dec R ε (α × σ)}
    (hf : ∀ st, Sound (f st) (fun b v => P st b v.1 v.2)) :
    ∀ (n : Nat) (i : UInt32) (st : σ) (items : List α),
    Sound (decodeListLoop f n i st items)
      (fun bs v => ∃ xs, v.1 = items ++ xs ∧ xs.length = n ∧ Steps P st bs xs v.2) := by
  intro n
  induction n with
  | zero =>
    intro i st items
    exact Sound.pure ⟨[], by simp, rfl, Steps.nil⟩
  | succ n ih =>
    intro i st items
    refine Sound.bind (Sound.mapErr (hf st)) ?_
    rintro ⟨x, st'⟩ b hP
    refine Sound.mono (ih (i + 1) st' (items ++ [x])) ?_
    rintro bs v ⟨xs, h1, h2, h3⟩
    exact ⟨x :: xs, by simp [h1], by simp [h2], Steps.cons hP h3⟩

theorem listLoop_runs {P : σ → List UInt8 → α → σ → Prop} {f : σ → Dec R ε (α × σ)}
    (hf : ∀ st b x st', P st b x st' → Runs (f st) b (x, st')) :
    ∀ (xs : List α) (i : UInt32) (st st' : σ) (items : List α) (bs : List UInt8),
    Steps P st bs xs st' → Runs (decodeListLoop f xs.length i st items) bs (items ++ xs, st') := by
  intro xs
  induction xs with
  | nil =>
    intro i st st' items bs h
    cases h
    simp only [List.append_nil]
    exact Runs.pure
  | cons x xs ih =>
    intro i st st' items bs h
    cases h with
    | cons h1 h2 =>
      refine Runs.bind (Runs.mapErr (hf _ _ _ _ h1)) ?_
      have := ih (i + 1) _ _ (items ++ [x]) _ h2
      simpa using this

theorem listLoop_g [ErrInfo ε] {I : σ → Prop} {f : σ → Dec R ε (α × σ)} {f' : σ → Dec S ε (α × σ)}
    (hf : ∀ st L', L' ≤ L → I st → G 0 L' (f st) (f' st))
    (hI : ∀ st, I st → Post (f st) (fun v => I v.2)) :
    ∀ (n : Nat) (i : UInt32) (st : σ) (items : List α), I st →
    G 0 L (decodeListLoop f n i st items) (decodeListLoop f' n i st items) := by
  intro n
  induction n with
  | zero => intro i st items _; exact G.pure
  | succ n ih =>
    intro i st items hst
    refine G.bindP (k := 0) (j := 0) (P := fun v => I v.2) ?_
      (G.mapErr (hf st L (Nat.le_refl _) hst) (fun _ => rfl) (fun _ => id)) ?_ (by omega)
    · intro r v r' h
      simp only [Dec.mapErr] at h
      split at h <;> cases h
      rename_i h1
      exact hI st hst _ _ _ h1
    · rintro _ ⟨x, st'⟩ hst'
      exact ih (i + 1) st' _ hst'

theorem listS_sound {P : σ → List UInt8 → α → σ → Prop} {f : σ → Dec R ε (α × σ)} {st : σ}
    (hf : ∀ st, Sound (f st) (fun b v => P st b v.1 v.2)) :
    Sound (decodeListS f st) (fun bs v => ∃ b1 b2, bs = b1 ++ b2 ∧ BU 32 b1 v.1.length ∧
      Steps P st b2 v.1 v.2) := by
  refine Sound.bind (Sound.mapErr decodeU32_sound) fun n b1 hn => ?_
  refine Sound.bind Sound.reserve ?_
  rintro _ _ rfl
  refine Sound.mono (listLoop_sound hf _ _ _ _) ?_
  rintro bs v ⟨xs, h1, h2, h3⟩
  simp only [List.nil_append] at h1
  subst h1
  refine ⟨b1, bs, by simp, ?_, h3⟩
  rw [h2]; exact hn

theorem listS_runs {P : σ → List UInt8 → α → σ → Prop} {f : σ → Dec R ε (α × σ)} {st st' : σ}
    (hf : ∀ st b x st', P st b x st' → Runs (f st) b (x, st')) {b1 b2 : List UInt8} {xs : List α}
    (hlt : xs.length < 2 ^ 32) (h1 : BU 32 b1 xs.length) (h2 : Steps P st b2 xs st') :
    Runs (decodeListS f st) (b1 ++ b2) (xs, st') := by
  have hn : (UInt32.ofNat xs.length).toNat = xs.length := by
    rw [UInt32.toNat_ofNat', Nat.mod_eq_of_lt hlt]
  refine Runs.bind (Runs.mapErr (decodeU32_runs (v := UInt32.ofNat xs.length)
    (by unfold BU32; rw [hn]; exact h1))) ?_
  refine Runs.bind_nil Runs.reserve ?_
  rw [hn]
  simpa using listLoop_runs hf xs 0 st st' [] b2 h2

theorem listS_g [ErrInfo ε] {I : σ → Prop} {f : σ → Dec R ε (α × σ)} {f' : σ → Dec S ε (α × σ)}
    {st : σ} (hf : ∀ st L', L' ≤ L → I st → G 0 L' (f st) (f' st))
    (hI : ∀ st, I st → Post (f st) (fun v => I v.2)) (hst : I st) :
    G 1 L (decodeListS f st) (decodeListS f' st) := by
  refine G.bind (G.mapErr decodeU32_g (fun _ => rfl) (fun _ => id)) (j := 0) (fun n => ?_) (by omega)
  refine G.bind0 G.reserve fun _ => ?_
  exact listLoop_g (fun st L' h => hf st L' (by omega)) hI _ _ _ _ hst

/-! Stateless lists. -/

theorem Steps.toBSeq {B : List UInt8 → α → Prop} {st st' : Unit} {bs : List UInt8} {xs : List α}
    (h : Steps (fun _ b x _ => B b x) st bs xs st') : BSeq B bs xs := by
  induction h with
  | nil => exact BSeq.nil
  | cons h _ ih => exact BSeq.cons h ih

theorem _root_.Wadec.Spec.BSeq.toSteps {B : List UInt8 → α → Prop} {bs : List UInt8} {xs : List α}
    (h : BSeq B bs xs) : Steps (fun (_ : Unit) b x (_ : Unit) => B b x) () bs xs () := by
  induction h with
  | nil => exact Steps.nil
  | cons h _ ih => exact Steps.cons h ih

theorem list_sound {B : List UInt8 → α → Prop} {f : Dec R ε α} (hf : Sound f B) :
    Sound (decodeList f) (BList B) := by
  refine Sound.bind (listS_sound (P := fun _ b x _ => B b x) (fun _ => ?_)) ?_
  · exact Sound.bind hf fun x b h => Sound.pure (by simpa using h)
  · rintro ⟨items, u⟩ _ ⟨b1, b2, rfl, h1, h2⟩
    refine Sound.pure ?_
    simp only [List.append_nil]
    exact BList.mk h1 h2.toBSeq

theorem BU.lt {N : Nat} {bs : Bytes} {v : Nat} (h : BU N bs v) : v < 2 ^ N := by
  induction h with
  | last _ h => exact h
  | @more N n bs m h1 h2 h3 ih =>
    have h4 : 2 ^ N = 2 ^ (N - 7) * 128 := by
      rw [← pow_add7]; congr 1; omega
    have := UInt8.toNat_lt n
    omega

theorem list_runs {B : List UInt8 → α → Prop} {f : Dec R ε α}
    (hf : ∀ b x, B b x → Runs f b x) {bs : List UInt8} {xs : List α} (h : BList B bs xs) :
    Runs (decodeList f) bs xs := by
  cases h with
  | mk h1 h2 =>
    refine Runs.bind_pure (f := Prod.fst) (x := (xs, ())) (listS_runs (P := fun _ b x _ => B b x)
      (st' := ()) ?_ (BU.lt h1) h1 h2.toSteps)
    intro _ b x st' hb
    exact Runs.bind_pure (f := fun x => (x, ())) (hf b x hb)

theorem list_g [ErrInfo ε] {f : Dec R ε α} {f' : Dec S ε α} (hf : ∀ L', L' ≤ L → G 0 L' f f') :
    G 1 L (decodeList f) (decodeList f') := by
  refine G.bind (j := 0) (listS_g (I := fun _ => True) ?_ (fun _ _ _ _ _ _ => trivial) trivial)
    (fun _ => G.pure) (by omega)
  intro _ L' hL' _
  exact G.bind0 (hf L' hL') fun _ => G.pure

/-! ### Byte vectors and names -/

theorem _root_.Wadec.Spec.BSeq.bytes {bs v : List UInt8} (h : BSeq BByte bs v) : bs = v := by
  induction h with
  | nil => rfl
  | cons h _ ih => rw [h, ih]; rfl

theorem BSeq.ofBytes : ∀ v : List UInt8, BSeq BByte v v
  | [] => BSeq.nil
  | b :: v => BSeq.cons (b := [b]) rfl (BSeq.ofBytes v)

theorem BByteVec.iff {bs v : List UInt8} :
    BByteVec bs v ↔ ∃ b1, BU 32 b1 v.length ∧ bs = b1 ++ v := by
  constructor
  · rintro ⟨h1, h2⟩
    exact ⟨_, h1, by rw [h2.bytes]⟩
  · rintro ⟨b1, h1, rfl⟩
    exact BList.mk h1 (BSeq.ofBytes v)

theorem byteVec_sound : Sound (R := R) decodeByteVector BByteVec := by
  refine Sound.bind (Sound.mapErr decodeU32_sound) fun n b1 hn => ?_
  refine Sound.bind Sound.reserve ?_
  rintro _ _ rfl
  refine Sound.mono (Sound.mapErr Sound.readExact) ?_
  rintro bs v ⟨rfl, hl⟩
  rw [BByteVec.iff]
  exact ⟨b1, by rw [hl]; exact hn, by simp⟩

theorem byteVec_runs {bs v : List UInt8} (h : BByteVec bs v) : Runs (R := R) decodeByteVector bs v := by
  rw [BByteVec.iff] at h
  obtain ⟨b1, h1, rfl⟩ := h
  have hn : (UInt32.ofNat v.length).toNat = v.length := by
    rw [UInt32.toNat_ofNat', Nat.mod_eq_of_lt (BU.lt h1)]
  refine Runs.bind (Runs.mapErr (decodeU32_runs (v := UInt32.ofNat v.length)
    (by unfold BU32; rw [hn]; exact h1))) ?_
  refine Runs.bind_nil Runs.reserve ?_
  rw [hn]
  exact Runs.mapErr (Runs.readExact rfl)

theorem byteVec_g : G 1 L (decodeByteVector : Dec R _ _) (decodeByteVector : Dec S _ _) := by
  refine G.bind (gmap decodeU32_g) (j := 0) (fun n => ?_) (by omega)
  exact G.bind0 G.reserve fun _ => G.mono (gmap G.readExact) (by omega)

theorem name_sound : Sound (R := R) decodeName BName := by
  refine Sound.bind (Sound.mapErr byteVec_sound) fun v b1 hv => ?_
  split
  · rename_i h
    refine Sound.pure ?_
    rw [List.append_nil]
    exact ⟨hv, (utf8Check_none_iff _).1 h⟩
  · exact Sound.err

theorem name_runs {bs : List UInt8} {s : Str} (h : BName bs s) : Runs (R := R) decodeName bs s := by
  rw [← List.append_nil bs]
  refine Runs.bind (Runs.mapErr (byteVec_runs h.1)) ?_
  rw [(utf8Check_none_iff _).2 h.2]
  exact Runs.pure

theorem name_g : G 1 L (decodeName : Dec R _ _) (decodeName : Dec S _ _) := by
  refine G.bind (gmap byteVec_g) (j := 0) (fun v => ?_) (by omega)
  split
  · exact G.pure
  · exact G.err

end
end Wadec
