import Verif.Proof.Instr
import Verif.Model.Module
import Verif.Spec.Module

/-! Section contents: the decoders of src/decode/sections against the binary format. -/

namespace Wadec

open Wadec.Spec LawfulRead

variable {R S : Type} [LawfulRead R] [LawfulRead S] {L : Nat}


/-! ### Expressions without the data index flag -/

theorem expr'_sound : Sound (R := R) decodeExpr' BExpr := by
  refine Sound.bind expr_sound ?_
  rintro ⟨e, d⟩ b1 h
  refine Sound.pure ?_
  simpa using h.1

theorem expr'_runs {bs : Bytes} {e : Expr} (h : BExpr bs e) : Runs (R := R) decodeExpr' bs e := by
  have := Runs.bind (R := R) (expr_runs (v := (e, anyContainsDataIdx e)) ⟨h, rfl⟩)
    (f := fun x => (Pure.pure x.1 : Dec R ParseExpressionError Expr)) (b2 := []) Runs.pure
  rw [List.append_nil] at this
  exact this

theorem expr'_g : G 1 L (decodeExpr' : Dec R _ _) (decodeExpr' : Dec S _ _) :=
  G.bind expr_g (fun _ => G.pure) (by omega)

/-! ### Code entries -/

/-- `locals` for the decoder's run-length representation. -/
def BLocal (bs : Bytes) (l : Local) : Prop := BLocals bs (l.count, l.t)

def sumLocals : List Local → Nat
  | [] => 0
  | l :: ls => l.count.toNat + sumLocals ls

theorem length_expandLocals : ∀ ls : List Local, (expandLocals ls).length = sumLocals ls := by
  intro ls
  induction ls with
  | nil => rfl
  | cons l ls ih =>
    simp only [expandLocals, List.flatMap_cons, List.length_append, List.length_replicate, sumLocals]
    rw [← ih]; rfl

theorem expandLocals_eq : ∀ ls : List Local,
    expandLocals ls = localsOf (ls.map (fun l => (l.count, l.t))) := by
  intro ls
  simp [expandLocals, localsOf, List.flatMap_map]

/-- One local declaration, with the running total. -/
def LocalStep (st : UInt64) (b : Bytes) (l : Local) (st' : UInt64) : Prop :=
  BLocal b l ∧ st'.toNat = st.toNat + l.count.toNat ∧ st'.toNat < 2 ^ 32

theorem codeLocal_sound (st : UInt64) :
    Sound (R := R) (parseCodeLocal st) (fun b v => LocalStep st b v.1 v.2) := by
  refine Sound.bind (Sound.mapErr decodeU32_sound) fun n b1 h1 => ?_
  refine Sound.ite (fun _ => Sound.panic) fun hp => ?_
  refine Sound.ite (fun _ => Sound.err) fun hm => ?_
  refine Sound.bind (Sound.mapErr ValType.sound) fun t b2 h2 => Sound.pure ?_
  have e : (st + n.toUInt64).toNat = st.toNat + n.toNat := by
    rw [UInt64.toNat_add, UInt32.toNat_toUInt64]; omega
  refine ⟨?_, e, ?_⟩
  · simpa [BLocal] using BLocals.mk h1 h2
  · simp only [UInt64.not_lt, UInt64.le_iff_toNat_le] at hm
    have : maxLocals.toNat = 4294967295 := rfl
    simp only
    omega

theorem codeLocal_runs (st : UInt64) (b : Bytes) (l : Local) (st' : UInt64)
    (h : LocalStep st b l st') : Runs (R := R) (parseCodeLocal st) b (l, st') := by
  obtain ⟨h1, h2, h3⟩ := h
  obtain ⟨n, t⟩ := l
  simp only [BLocal] at h1 h2
  have : maxLocals.toNat = 4294967295 := rfl
  have e : st + n.toUInt64 = st' := by
    apply UInt64.toNat_inj.1
    rw [UInt64.toNat_add, UInt32.toNat_toUInt64]; omega
  cases h1 with
  | mk h1 h4 =>
    refine Runs.bind (Runs.mapErr (decodeU32_runs h1)) ?_
    refine Runs.ite_neg (by omega) (Runs.ite_neg ?_ ?_)
    · rw [e, UInt64.lt_iff_toNat_lt]; omega
    · rw [e]
      exact Runs.bind_pure (f := fun t => ((⟨n, t⟩ : Local), st')) (Runs.mapErr (ValType.runs h4))

theorem codeLocal_g {st : UInt64} (hst : st.toNat < 2 ^ 32) :
    G 1 L (parseCodeLocal st : Dec R _ _) (parseCodeLocal st : Dec S _ _) := by
  refine G.bind (gmap decodeU32_g) (j := 0) (fun n => ?_) (by omega)
  refine G.ite (fun h => ?_) fun _ => G.ite (fun _ => G.err) fun _ => ?_
  · have := UInt32.toNat_lt n
    omega
  · exact G.bind0 (g0 (gmap ValType.g)) fun _ => G.pure

theorem localSteps_seq {st st' : UInt64} {bs : Bytes} {ls : List Local}
    (h : Steps LocalStep st bs ls st') :
    BSeq BLocal bs ls ∧ st'.toNat = st.toNat + sumLocals ls ∧ (ls ≠ [] → st'.toNat < 2 ^ 32) := by
  induction h with
  | nil => exact ⟨BSeq.nil, rfl, fun h => absurd rfl h⟩
  | @cons st st1 st2 b bs x xs h _ ih =>
    obtain ⟨h1, h2, h3⟩ := h
    obtain ⟨i1, i2, i3⟩ := ih
    refine ⟨BSeq.cons h1 i1, by simp only [sumLocals]; omega, fun _ => ?_⟩
    by_cases hx : xs = []
    · subst hx; simp only [sumLocals] at i2; omega
    · exact i3 hx

theorem seq_localSteps {bs : Bytes} {ls : List Local} (h : BSeq BLocal bs ls) :
    ∀ st : UInt64, st.toNat + sumLocals ls < 2 ^ 32 → ∃ st', Steps LocalStep st bs ls st' := by
  induction h with
  | nil => intro st _; exact ⟨st, Steps.nil⟩
  | @cons b bs x xs h _ ih =>
    intro st hs
    simp only [sumLocals] at hs
    have e : (st + x.count.toUInt64).toNat = st.toNat + x.count.toNat := by
      rw [UInt64.toNat_add, UInt32.toNat_toUInt64]; omega
    obtain ⟨st', h'⟩ := ih (st + x.count.toUInt64) (by omega)
    exact ⟨st', Steps.cons ⟨h, e, by omega⟩ h'⟩

/-- A code entry in the decoder's representation. -/
inductive BCodeD : Bytes → Code → Prop
  | mk {b1 b2 b3 : Bytes} {size : UInt32} {ls : List Local} {e : Expr} : BU32 b1 size →
      (b2 ++ b3).length = size.toNat → BList BLocal b2 ls → BExpr b3 e → sumLocals ls < 2 ^ 32 →
      BCodeD (b1 ++ (b2 ++ b3)) ⟨size, ls, e, anyContainsDataIdx e⟩

/-- Function bodies: locals and expression. -/
inductive BBodyD : Bytes → List Local × Expr × Bool → Prop
  | mk {b2 b3 : Bytes} {ls : List Local} {e : Expr} : BList BLocal b2 ls → BExpr b3 e →
      sumLocals ls < 2 ^ 32 → BBodyD (b2 ++ b3) (ls, e, anyContainsDataIdx e)

theorem codeBody_sound : Sound (R := R) parseCodeBody BBodyD := by
  refine Sound.bind (Sound.mapErr (listS_sound codeLocal_sound)) ?_
  rintro ⟨ls, st⟩ _ ⟨b1, b2, rfl, h1, h2⟩
  obtain ⟨h3, h4, h5⟩ := localSteps_seq h2
  refine Sound.bind (Sound.mapErr expr_sound) ?_
  rintro ⟨e, d⟩ b3 ⟨h6, h7⟩
  refine Sound.pure ?_
  simp only at h1 h3 h4 h5 h6 h7
  subst h7
  rw [List.append_nil]
  refine BBodyD.mk (BList.mk h1 h3) h6 ?_
  by_cases hl : ls = []
  · subst hl; simp [sumLocals]
  · have := h5 hl
    have e0 : (0 : UInt64).toNat = 0 := rfl
    omega

theorem codeBody_runs {bs : Bytes} {v : List Local × Expr × Bool} (h : BBodyD bs v) :
    Runs (R := R) parseCodeBody bs v := by
  cases h with
  | @mk b2 b3 ls e h1 h2 h3 =>
    cases h1 with
    | mk h4 h5 =>
      obtain ⟨st', h6⟩ := seq_localSteps h5 0 (by
        have e0 : (0 : UInt64).toNat = 0 := rfl
        omega)
      refine Runs.bind (Runs.mapErr (listS_runs codeLocal_runs (Wadec.BU.lt h4) h4 h6)) ?_
      rw [← List.append_nil b3]
      exact Runs.bind (Runs.mapErr (expr_runs (v := (e, anyContainsDataIdx e)) ⟨h2, rfl⟩)) Runs.pure

theorem codeBody_g : G 1 L (parseCodeBody : Dec R _ _) (parseCodeBody : Dec S _ _) := by
  refine G.bind (gmap (listS_g (I := fun st => st.toNat < 2 ^ 32) ?_ ?_ (by decide))) (j := 0)
    (fun x => ?_) (by omega)
  · exact fun st L' _ h => g0 (codeLocal_g h)
  · intro st h r v r' heq
    obtain ⟨_, _, h⟩ := codeLocal_sound st r v r' heq
    exact h.2.2
  · exact G.bind0 (g0 (gmap expr_g)) fun _ => G.pure

theorem code_sound : Sound (R := R) parseCode BCodeD := by
  refine Sound.bind (Sound.mapErr decodeU32_sound) fun size b1 h1 => ?_
  refine Sound.bind (Sound.withTake codeBody_sound) ?_
  rintro ⟨⟨ls, e, d⟩, limit⟩ b2 ⟨h2, h3⟩
  refine Sound.ite (fun _ => Sound.err) fun hl => Sound.pure ?_
  simp only [Decidable.not_not] at hl h2 h3
  subst hl
  cases h2 with
  | mk h4 h5 h6 =>
    rw [List.append_nil]
    exact BCodeD.mk h1 h3.symm h4 h5 h6

theorem code_runs {bs : Bytes} {c : Code} (h : BCodeD bs c) : Runs (R := R) parseCode bs c := by
  cases h with
  | @mk b1 b2 b3 size ls e h1 h2 h3 h4 h5 =>
    refine Runs.bind (Runs.mapErr (decodeU32_runs h1)) ?_
    rw [← List.append_nil (b2 ++ b3)]
    refine Runs.bind (Runs.withTake (by omega) (codeBody_runs (BBodyD.mk h3 h4 h5))) ?_
    rw [h2, Nat.sub_self]
    exact Runs.ite_neg (by simp) Runs.pure

theorem code_g : G 1 L (parseCode : Dec R _ _) (parseCode : Dec S _ _) := by
  refine G.bind (gmap decodeU32_g) (j := 0) (fun size => ?_) (by omega)
  refine G.bind0 (g0 (G.withTake codeBody_g)) fun x => ?_
  exact G.ite (fun _ => G.err) fun _ => G.pure

/-- What the specification calls a code entry. -/
def Code.toEntry (c : Code) : CodeEntry := ⟨expandLocals c.locals, c.expr⟩

theorem seq_map {α β : Type} {A : Bytes → α → Prop} {B : Bytes → β → Prop} (f : α → β)
    (h : ∀ b x, A b x → B b (f x)) {bs : Bytes} {xs : List α} (hs : BSeq A bs xs) :
    BSeq B bs (xs.map f) := by
  induction hs with
  | nil => exact BSeq.nil
  | cons h1 _ ih => exact BSeq.cons (h _ _ h1) ih

theorem seq_unmap {α β : Type} {A : Bytes → α → Prop} {B : Bytes → β → Prop} (f : α → β)
    (h : ∀ b y, B b y → ∃ x, A b x ∧ y = f x) {bs : Bytes} {ys : List β} (hs : BSeq B bs ys) :
    ∃ xs, BSeq A bs xs ∧ ys = xs.map f := by
  induction hs with
  | nil => exact ⟨[], BSeq.nil, rfl⟩
  | cons h1 _ ih =>
    obtain ⟨x, hx, rfl⟩ := h _ _ h1
    obtain ⟨xs, hxs, rfl⟩ := ih
    exact ⟨x :: xs, BSeq.cons hx hxs, rfl⟩

theorem list_map {α β : Type} {A : Bytes → α → Prop} {B : Bytes → β → Prop} (f : α → β)
    (h : ∀ b x, A b x → B b (f x)) {bs : Bytes} {xs : List α} (hs : BList A bs xs) :
    BList B bs (xs.map f) := by
  cases hs with
  | mk h1 h2 => exact BList.mk (by simpa using h1) (seq_map f h h2)

theorem list_unmap {α β : Type} {A : Bytes → α → Prop} {B : Bytes → β → Prop} (f : α → β)
    (h : ∀ b y, B b y → ∃ x, A b x ∧ y = f x) {bs : Bytes} {ys : List β} (hs : BList B bs ys) :
    ∃ xs, BList A bs xs ∧ ys = xs.map f := by
  cases hs with
  | mk h1 h2 =>
    obtain ⟨xs, hxs, rfl⟩ := seq_unmap f h h2
    exact ⟨xs, BList.mk (by simpa using h1) hxs, rfl⟩

theorem BCodeD.toBCode {bs : Bytes} {c : Code} (h : BCodeD bs c) : BCode bs c.toEntry := by
  cases h with
  | @mk b1 b2 b3 size ls e h1 h2 h3 h4 h5 =>
    refine BCode.mk (by rw [h2]; exact h1) ?_
    simp only [Code.toEntry]
    have h6 := length_expandLocals ls
    rw [expandLocals_eq] at h6 ⊢
    exact BFunc.mk (list_map (fun l : Local => (l.count, l.t)) (fun _ _ h => h) h3) h4 (by omega)

theorem BCode.toBCodeD {bs : Bytes} {c : CodeEntry} (h : BCode bs c) :
    ∃ d, BCodeD bs d ∧ c = d.toEntry := by
  cases h with
  | @mk b1 b2 c h1 h2 =>
    cases h2 with
    | @mk b2 b3 runs e h3 h4 h5 =>
      obtain ⟨ls, h6, rfl⟩ := list_unmap (A := BLocal) (fun l : Local => (l.count, l.t))
        (fun b y h => ⟨⟨y.1, y.2⟩, h, rfl⟩) h3
      have hn : (UInt32.ofNat (b2 ++ b3).length).toNat = (b2 ++ b3).length := by
        rw [UInt32.toNat_ofNat', Nat.mod_eq_of_lt (Wadec.BU.lt h1)]
      rw [← expandLocals_eq] at h5 ⊢
      rw [length_expandLocals] at h5
      exact ⟨⟨UInt32.ofNat (b2 ++ b3).length, ls, e, anyContainsDataIdx e⟩,
        BCodeD.mk (by rw [BU32, hn]; exact h1) hn.symm h6 h4 h5, rfl⟩

/-! ### Data -/

theorem byteVec_eq {bs : Bytes} {n : UInt32} {k : Nat} (h : BU32 bs n) (hk : n.toNat = k) :
    BU 32 bs k := hk ▸ h

theorem data_sound : Sound (R := R) parseData BData := by
  refine Sound.bind (Sound.mapErr decodeU32_sound) fun n b0 h0 => ?_
  refine Sound.ite (fun hn => ?_) fun _ => Sound.ite (fun hn => ?_) fun _ =>
    Sound.ite (fun hn => ?_) fun _ => Sound.err
  · subst hn
    refine Sound.bind (Sound.mapErr expr'_sound) fun e b1 h1 => ?_
    refine Sound.bind (Sound.mapErr byteVec_sound) fun v b2 h2 => Sound.pure ?_
    simpa using BData.active0 h0 h1 h2
  · subst hn
    refine Sound.bind (Sound.mapErr byteVec_sound) fun v b2 h2 => Sound.pure ?_
    simpa using BData.passive h0 h2
  · subst hn
    refine Sound.bind (Sound.mapErr MemIdx.sound) fun x b1 h1 => ?_
    refine Sound.bind (Sound.mapErr expr'_sound) fun e b2 h2 => ?_
    refine Sound.bind (Sound.mapErr byteVec_sound) fun v b3 h3 => Sound.pure ?_
    simpa using BData.active h0 h1 h2 h3

theorem data_runs {bs : Bytes} {d : Data} (h : BData bs d) : Runs (R := R) parseData bs d := by
  cases h with
  | @active0 b0 b1 b2 e bs h0 h1 h2 =>
    refine Runs.bind (x := (0 : UInt32)) (Runs.mapErr (decodeU32_runs h0)) ?_
    refine Runs.ite_pos rfl ?_
    refine Runs.bind (Runs.mapErr (expr'_runs h1)) ?_
    exact Runs.bind_pure (f := fun v => (⟨v, .Active ⟨0⟩ e⟩ : Data))
      (Runs.mapErr (byteVec_runs h2))
  | @passive b0 b1 bs h0 h1 =>
    refine Runs.bind (x := (1 : UInt32)) (Runs.mapErr (decodeU32_runs h0)) ?_
    refine Runs.ite_neg (by decide) (Runs.ite_pos rfl ?_)
    exact Runs.bind_pure (f := fun v => (⟨v, .Passive⟩ : Data)) (Runs.mapErr (byteVec_runs h1))
  | @active b0 b1 b2 b3 x e bs h0 h1 h2 h3 =>
    refine Runs.bind (x := (2 : UInt32)) (Runs.mapErr (decodeU32_runs h0)) ?_
    refine Runs.ite_neg (by decide) (Runs.ite_neg (by decide) (Runs.ite_pos rfl ?_))
    refine Runs.bind (Runs.mapErr (MemIdx.runs h1)) ?_
    refine Runs.bind (Runs.mapErr (expr'_runs h2)) ?_
    exact Runs.bind_pure (f := fun v => (⟨v, .Active x e⟩ : Data)) (Runs.mapErr (byteVec_runs h3))

theorem data_g : G 1 L (parseData : Dec R _ _) (parseData : Dec S _ _) := by
  refine G.bind (gmap decodeU32_g) (j := 0) (fun n => ?_) (by omega)
  refine G.ite (fun _ => ?_) fun _ => G.ite (fun _ => ?_) fun _ => G.ite (fun _ => ?_) fun _ => G.err
  · refine G.bind0 (g0 (gmap expr'_g)) fun _ => ?_
    exact G.bind0 (g0 (gmap byteVec_g)) fun _ => G.pure
  · exact G.bind0 (g0 (gmap byteVec_g)) fun _ => G.pure
  · refine G.bind0 (g0 (gmap MemIdx.g)) fun _ => ?_
    refine G.bind0 (g0 (gmap expr'_g)) fun _ => ?_
    exact G.bind0 (g0 (gmap byteVec_g)) fun _ => G.pure

/-! ### Element segments -/

theorem elemKind_sound : Sound (R := R) parseElemKind (fun b t => b = [0x00] ∧ t = ⟨true, .Ht .Func⟩) := by
  refine Sound.bind (Sound.mapErr Sound.readByte) ?_
  rintro b _ rfl
  refine Sound.ite (fun _ => Sound.err) fun h => Sound.pure ?_
  simp only [Decidable.not_not] at h
  subst h
  exact ⟨rfl, rfl⟩

theorem elemKind_runs : Runs (R := R) parseElemKind [0x00] ⟨true, .Ht .Func⟩ :=
  Runs.bind (b1 := [0x00]) (b2 := []) (Runs.mapErr Runs.readByte) (Runs.ite_neg (by simp) Runs.pure)

theorem elemKind_g : G 1 L (parseElemKind : Dec R _ _) (parseElemKind : Dec S _ _) :=
  G.bind (gmap G.readByte) (j := 0) (fun _ => G.ite (fun _ => G.err) fun _ => G.pure) (by omega)

theorem elemFuncs_sound : Sound (R := R) elemFuncs (BList BFuncIdx) :=
  Sound.mapErr (list_sound FuncIdx.sound)
theorem elemFuncs_runs {bs : Bytes} {ys : List FuncIdx} (h : BList BFuncIdx bs ys) :
    Runs (R := R) elemFuncs bs ys := Runs.mapErr (list_runs (fun _ _ => FuncIdx.runs) h)
theorem elemFuncs_g : G 0 L (elemFuncs : Dec R _ _) (elemFuncs : Dec S _ _) :=
  g0 (gmap (list_g fun _ _ => g0 FuncIdx.g))

theorem elemExprs_sound : Sound (R := R) elemExprs (BList BExpr) :=
  Sound.mapErr (list_sound expr'_sound)
theorem elemExprs_runs {bs : Bytes} {ys : List Expr} (h : BList BExpr bs ys) :
    Runs (R := R) elemExprs bs ys := Runs.mapErr (list_runs (fun _ _ => expr'_runs) h)
theorem elemExprs_g : G 0 L (elemExprs : Dec R _ _) (elemExprs : Dec S _ _) :=
  g0 (gmap (list_g fun _ _ => g0 expr'_g))

theorem elem_sound : Sound (R := R) parseElem BElem := by
  refine Sound.bind (Sound.mapErr decodeU32_sound) fun n b0 h0 => ?_
  refine Sound.ite (fun hn => ?_) fun _ => Sound.ite (fun hn => ?_) fun _ =>
    Sound.ite (fun hn => ?_) fun _ => Sound.ite (fun hn => ?_) fun _ =>
    Sound.ite (fun hn => ?_) fun _ => Sound.ite (fun hn => ?_) fun _ =>
    Sound.ite (fun hn => ?_) fun _ => Sound.ite (fun hn => ?_) fun _ => Sound.err
  all_goals subst hn
  · refine Sound.bind (Sound.mapErr expr'_sound) fun e b1 h1 => ?_
    refine Sound.bind elemFuncs_sound fun y b2 h2 => Sound.pure ?_
    simpa [funcidxIntoReffunc, refFuncs] using BElem.active0 h0 h1 h2
  · refine Sound.bind (Sound.mapErr elemKind_sound) ?_
    rintro _ _ ⟨rfl, rfl⟩
    refine Sound.bind elemFuncs_sound fun y b2 h2 => Sound.pure ?_
    simpa [funcidxIntoReffunc, refFuncs] using BElem.passive h0 h2
  · refine Sound.bind (Sound.mapErr TableIdx.sound) fun x b1 h1 => ?_
    refine Sound.bind (Sound.mapErr expr'_sound) fun e b2 h2 => ?_
    refine Sound.bind (Sound.mapErr elemKind_sound) ?_
    rintro _ _ ⟨rfl, rfl⟩
    refine Sound.bind elemFuncs_sound fun y b3 h3 => Sound.pure ?_
    simpa [funcidxIntoReffunc, refFuncs] using BElem.active h0 h1 h2 h3
  · refine Sound.bind (Sound.mapErr elemKind_sound) ?_
    rintro _ _ ⟨rfl, rfl⟩
    refine Sound.bind elemFuncs_sound fun y b2 h2 => Sound.pure ?_
    simpa [funcidxIntoReffunc, refFuncs] using BElem.declare h0 h2
  · refine Sound.bind (Sound.mapErr expr'_sound) fun e b1 h1 => ?_
    refine Sound.bind elemExprs_sound fun y b2 h2 => Sound.pure ?_
    simpa using BElem.active0Expr h0 h1 h2
  · refine Sound.bind (Sound.mapErr RefType.sound) fun rt b1 h1 => ?_
    refine Sound.bind elemExprs_sound fun y b2 h2 => Sound.pure ?_
    simpa using BElem.passiveExpr h0 h1 h2
  · refine Sound.bind (Sound.mapErr TableIdx.sound) fun x b1 h1 => ?_
    refine Sound.bind (Sound.mapErr expr'_sound) fun e b2 h2 => ?_
    refine Sound.bind (Sound.mapErr RefType.sound) fun rt b3 h3 => ?_
    refine Sound.bind elemExprs_sound fun y b4 h4 => Sound.pure ?_
    simpa using BElem.activeExpr h0 h1 h2 h3 h4
  · refine Sound.bind (Sound.mapErr RefType.sound) fun rt b1 h1 => ?_
    refine Sound.bind elemExprs_sound fun y b2 h2 => Sound.pure ?_
    simpa using BElem.declareExpr h0 h1 h2

theorem elem_runs {bs : Bytes} {e : Elem} (h : BElem bs e) : Runs (R := R) parseElem bs e := by
  cases h with
  | @active0 b0 b1 b2 e ys h0 h1 h2 =>
    refine Runs.bind (x := (0 : UInt32)) (Runs.mapErr (decodeU32_runs h0)) ?_
    refine Runs.ite_pos rfl ?_
    refine Runs.bind (Runs.mapErr (expr'_runs h1)) ?_
    exact Runs.bind_pure (f := fun y => (⟨⟨false, .Ht .Func⟩, funcidxIntoReffunc y, .Active ⟨0⟩ e⟩ : Elem))
      (elemFuncs_runs h2)
  | @passive b0 b1 ys h0 h1 =>
    refine Runs.bind (x := (1 : UInt32)) (Runs.mapErr (decodeU32_runs h0)) ?_
    refine Runs.ite_neg (by decide) (Runs.ite_pos rfl ?_)
    refine Runs.bind (b1 := [0x00]) (Runs.mapErr elemKind_runs) ?_
    exact Runs.bind_pure (f := fun y => (⟨⟨true, .Ht .Func⟩, funcidxIntoReffunc y, .Passive⟩ : Elem))
      (elemFuncs_runs h1)
  | @active b0 b1 b2 b3 x e ys h0 h1 h2 h3 =>
    refine Runs.bind (x := (2 : UInt32)) (Runs.mapErr (decodeU32_runs h0)) ?_
    refine Runs.ite_neg (by decide) (Runs.ite_neg (by decide) (Runs.ite_pos rfl ?_))
    refine Runs.bind (Runs.mapErr (TableIdx.runs h1)) ?_
    refine Runs.bind (Runs.mapErr (expr'_runs h2)) ?_
    refine Runs.bind (b1 := [0x00]) (Runs.mapErr elemKind_runs) ?_
    exact Runs.bind_pure (f := fun y => (⟨⟨true, .Ht .Func⟩, funcidxIntoReffunc y, .Active x e⟩ : Elem))
      (elemFuncs_runs h3)
  | @declare b0 b1 ys h0 h1 =>
    refine Runs.bind (x := (3 : UInt32)) (Runs.mapErr (decodeU32_runs h0)) ?_
    refine Runs.ite_neg (by decide) (Runs.ite_neg (by decide) (Runs.ite_neg (by decide)
      (Runs.ite_pos rfl ?_)))
    refine Runs.bind (b1 := [0x00]) (Runs.mapErr elemKind_runs) ?_
    exact Runs.bind_pure (f := fun y => (⟨⟨true, .Ht .Func⟩, funcidxIntoReffunc y, .Declare⟩ : Elem))
      (elemFuncs_runs h1)
  | @active0Expr b0 b1 b2 e es h0 h1 h2 =>
    refine Runs.bind (x := (4 : UInt32)) (Runs.mapErr (decodeU32_runs h0)) ?_
    refine Runs.ite_neg (by decide) (Runs.ite_neg (by decide) (Runs.ite_neg (by decide)
      (Runs.ite_neg (by decide) (Runs.ite_pos rfl ?_))))
    refine Runs.bind (Runs.mapErr (expr'_runs h1)) ?_
    exact Runs.bind_pure (f := fun y => (⟨⟨true, .Ht .Func⟩, y, .Active ⟨0⟩ e⟩ : Elem))
      (elemExprs_runs h2)
  | @passiveExpr b0 b1 b2 rt es h0 h1 h2 =>
    refine Runs.bind (x := (5 : UInt32)) (Runs.mapErr (decodeU32_runs h0)) ?_
    refine Runs.ite_neg (by decide) (Runs.ite_neg (by decide) (Runs.ite_neg (by decide)
      (Runs.ite_neg (by decide) (Runs.ite_neg (by decide) (Runs.ite_pos rfl ?_)))))
    refine Runs.bind (Runs.mapErr (RefType.runs h1)) ?_
    exact Runs.bind_pure (f := fun y => (⟨rt, y, .Passive⟩ : Elem)) (elemExprs_runs h2)
  | @activeExpr b0 b1 b2 b3 b4 x e rt es h0 h1 h2 h3 h4 =>
    refine Runs.bind (x := (6 : UInt32)) (Runs.mapErr (decodeU32_runs h0)) ?_
    refine Runs.ite_neg (by decide) (Runs.ite_neg (by decide) (Runs.ite_neg (by decide)
      (Runs.ite_neg (by decide) (Runs.ite_neg (by decide) (Runs.ite_neg (by decide)
      (Runs.ite_pos rfl ?_))))))
    refine Runs.bind (Runs.mapErr (TableIdx.runs h1)) ?_
    refine Runs.bind (Runs.mapErr (expr'_runs h2)) ?_
    refine Runs.bind (Runs.mapErr (RefType.runs h3)) ?_
    exact Runs.bind_pure (f := fun y => (⟨rt, y, .Active x e⟩ : Elem)) (elemExprs_runs h4)
  | @declareExpr b0 b1 b2 rt es h0 h1 h2 =>
    refine Runs.bind (x := (7 : UInt32)) (Runs.mapErr (decodeU32_runs h0)) ?_
    refine Runs.ite_neg (by decide) (Runs.ite_neg (by decide) (Runs.ite_neg (by decide)
      (Runs.ite_neg (by decide) (Runs.ite_neg (by decide) (Runs.ite_neg (by decide)
      (Runs.ite_neg (by decide) (Runs.ite_pos rfl ?_)))))))
    refine Runs.bind (Runs.mapErr (RefType.runs h1)) ?_
    exact Runs.bind_pure (f := fun y => (⟨rt, y, .Declare⟩ : Elem)) (elemExprs_runs h2)

theorem elem_g : G 1 L (parseElem : Dec R _ _) (parseElem : Dec S _ _) := by
  refine G.bind (gmap decodeU32_g) (j := 0) (fun n => ?_) (by omega)
  refine G.ite (fun _ => ?_) fun _ => G.ite (fun _ => ?_) fun _ => G.ite (fun _ => ?_) fun _ =>
    G.ite (fun _ => ?_) fun _ => G.ite (fun _ => ?_) fun _ => G.ite (fun _ => ?_) fun _ =>
    G.ite (fun _ => ?_) fun _ => G.ite (fun _ => ?_) fun _ => G.err
  · refine G.bind0 (g0 (gmap expr'_g)) fun _ => ?_
    exact G.bind0 elemFuncs_g fun _ => G.pure
  · refine G.bind0 (g0 (gmap elemKind_g)) fun _ => ?_
    exact G.bind0 elemFuncs_g fun _ => G.pure
  · refine G.bind0 (g0 (gmap TableIdx.g)) fun _ => ?_
    refine G.bind0 (g0 (gmap expr'_g)) fun _ => ?_
    refine G.bind0 (g0 (gmap elemKind_g)) fun _ => ?_
    exact G.bind0 elemFuncs_g fun _ => G.pure
  · refine G.bind0 (g0 (gmap elemKind_g)) fun _ => ?_
    exact G.bind0 elemFuncs_g fun _ => G.pure
  · refine G.bind0 (g0 (gmap expr'_g)) fun _ => ?_
    exact G.bind0 elemExprs_g fun _ => G.pure
  · refine G.bind0 (g0 (gmap RefType.g)) fun _ => ?_
    exact G.bind0 elemExprs_g fun _ => G.pure
  · refine G.bind0 (g0 (gmap TableIdx.g)) fun _ => ?_
    refine G.bind0 (g0 (gmap expr'_g)) fun _ => ?_
    refine G.bind0 (g0 (gmap RefType.g)) fun _ => ?_
    exact G.bind0 elemExprs_g fun _ => G.pure
  · refine G.bind0 (g0 (gmap RefType.g)) fun _ => ?_
    exact G.bind0 elemExprs_g fun _ => G.pure

/-! ### Exports and imports -/

theorem externIdx_sound {b : UInt8} {idx : UInt32} {bs : Bytes} (h : BU32 bs idx) :
    Sound (R := R) (ExternIdx.from b idx) (fun b' x => b' = [] ∧ BExternIdx (b :: bs) x) := by
  unfold ExternIdx.from
  refine Sound.ite ?_ fun _ => Sound.ite ?_ fun _ => Sound.ite ?_ fun _ => Sound.ite ?_ fun _ =>
    Sound.ite ?_ fun _ => Sound.err
  · rintro rfl; exact Sound.pure ⟨rfl, .func h⟩
  · rintro rfl; exact Sound.pure ⟨rfl, .table h⟩
  · rintro rfl; exact Sound.pure ⟨rfl, .mem h⟩
  · rintro rfl; exact Sound.pure ⟨rfl, .global h⟩
  · rintro rfl; exact Sound.pure ⟨rfl, .tag h⟩

theorem export_sound : Sound (R := R) parseExport BExport := by
  refine Sound.bind (Sound.mapErr name_sound) fun nm b1 h1 => ?_
  refine Sound.bind (Sound.mapErr Sound.readByte) ?_
  rintro b _ rfl
  refine Sound.bind (Sound.mapErr decodeU32_sound) fun idx b2 h2 => ?_
  refine Sound.bind (Sound.mapErr (externIdx_sound h2)) ?_
  rintro xx _ ⟨rfl, h3⟩
  refine Sound.pure ?_
  simpa using BExport.mk h1 h3

theorem export_runs {bs : Bytes} {e : Export} (h : BExport bs e) :
    Runs (R := R) parseExport bs e := by
  cases h with
  | @mk b1 b2 nm xx h1 h2 =>
    refine Runs.bind (Runs.mapErr (name_runs h1)) ?_
    have key : ∀ (b : UInt8) (bs : Bytes) (idx : UInt32), BU32 bs idx →
        Runs (R := R) (ExternIdx.from b idx) [] xx →
        Runs (R := R) (do
          let desc_kind ← readByte.mapErr DecodeExportError.ReadDescriptorMarkerByte
          let idx ← decodeU32.mapErr DecodeExportError.DecodeIndex
          let desc ← (ExternIdx.from desc_kind idx).mapErr DecodeExportError.InvalidDescriptorMarkerByte
          pure ⟨nm, desc⟩ : Dec R DecodeExportError Export) (b :: bs) ⟨nm, xx⟩ := by
      intro b bs idx h h'
      refine Runs.bind (b1 := [b]) (b2 := bs) (Runs.mapErr Runs.readByte) ?_
      rw [← List.append_nil bs]
      refine Runs.bind (Runs.mapErr (decodeU32_runs h)) ?_
      exact Runs.bind_pure (f := fun d => (⟨nm, d⟩ : Export)) (Runs.mapErr h')
    cases h2 with
    | func h => exact key _ _ _ h Runs.pure
    | table h => exact key _ _ _ h Runs.pure
    | mem h => exact key _ _ _ h Runs.pure
    | global h => exact key _ _ _ h Runs.pure
    | tag h => exact key _ _ _ h Runs.pure

theorem export_g : G 1 L (parseExport : Dec R _ _) (parseExport : Dec S _ _) := by
  refine G.bind (gmap name_g) (j := 0) (fun _ => ?_) (by omega)
  refine G.bind0 (g0 (gmap G.readByte)) fun b => ?_
  refine G.bind0 (g0 (gmap decodeU32_g)) fun idx => ?_
  refine G.bind0 ?_ fun _ => G.pure
  refine gmap ?_
  unfold ExternIdx.from
  exact G.ite (fun _ => G.pure) fun _ => G.ite (fun _ => G.pure) fun _ =>
    G.ite (fun _ => G.pure) fun _ => G.ite (fun _ => G.pure) fun _ =>
    G.ite (fun _ => G.pure) fun _ => G.err

theorem import_sound : Sound (R := R) parseImport BImport := by
  refine Sound.bind (Sound.mapErr name_sound) fun n1 b1 h1 => ?_
  refine Sound.bind (Sound.mapErr name_sound) fun n2 b2 h2 => ?_
  refine Sound.bind (Sound.mapErr ExternType.sound) fun xt b3 h3 => Sound.pure ?_
  simpa using BImport.mk h1 h2 h3

theorem import_runs {bs : Bytes} {i : Import} (h : BImport bs i) :
    Runs (R := R) parseImport bs i := by
  cases h with
  | @mk b1 b2 b3 n1 n2 xt h1 h2 h3 =>
    refine Runs.bind (Runs.mapErr (name_runs h1)) ?_
    refine Runs.bind (Runs.mapErr (name_runs h2)) ?_
    exact Runs.bind_pure (f := fun t => (⟨n1, n2, t⟩ : Import)) (Runs.mapErr (ExternType.runs h3))

theorem import_g : G 1 L (parseImport : Dec R _ _) (parseImport : Dec S _ _) := by
  refine G.bind (gmap name_g) (j := 0) (fun _ => ?_) (by omega)
  refine G.bind0 (g0 (gmap name_g)) fun _ => ?_
  exact G.bind0 (g0 (gmap ExternType.g)) fun _ => G.pure

/-! ### Globals and tables -/

theorem global_sound : Sound (R := R) parseGlobal BGlobal := by
  refine Sound.bind (Sound.mapErr GlobalType.sound) fun t b1 h1 => ?_
  refine Sound.bind (Sound.mapErr expr'_sound) fun e b2 h2 => Sound.pure ?_
  simpa using BGlobal.mk h1 h2

theorem global_runs {bs : Bytes} {g : Global} (h : BGlobal bs g) :
    Runs (R := R) parseGlobal bs g := by
  cases h with
  | @mk b1 b2 gt e h1 h2 =>
    refine Runs.bind (Runs.mapErr (GlobalType.runs h1)) ?_
    exact Runs.bind_pure (f := fun e => (⟨gt, e⟩ : Global)) (Runs.mapErr (expr'_runs h2))

theorem global_g : G 1 L (parseGlobal : Dec R _ _) (parseGlobal : Dec S _ _) := by
  refine G.bind (gmap GlobalType.g) (j := 0) (fun _ => ?_) (by omega)
  exact G.bind0 (g0 (gmap expr'_g)) fun _ => G.pure

theorem BTableType.nonempty {t : TableType} : ¬ BTableType [] t := by
  intro h
  generalize hb : ([] : Bytes) = bs at h
  cases h with
  | @mk b1 b2 rt lim h1 h2 =>
    have : b1 = [] := by
      cases b1 with
      | nil => rfl
      | cons => cases hb
    subst this
    exact Wadec.BRefType.nonempty h1

theorem BTableType.head {b : UInt8} {bs : Bytes} {t : TableType} (h : BTableType (b :: bs) t) :
    b ≠ 0x40 := by
  generalize hb : b :: bs = bs' at h
  cases h with
  | @mk b1 b2 rt lim h1 h2 =>
    match b1, h1, hb with
    | [], h1, _ => exact absurd h1 Wadec.BRefType.nonempty
    | b' :: b1, h1, hb =>
      cases hb
      cases h1 with
      | ref => decide
      | refNull => decide
      | abs h => cases h <;> decide

theorem table_sound : Sound (R := R) decodeTable BTable := by
  refine Sound.bind (Sound.mapErr Sound.readByte) ?_
  rintro b _ rfl
  refine Sound.ite (fun hb => ?_) fun _ => ?_
  · subst hb
    refine Sound.bind (Sound.mapErr Sound.readByte) ?_
    rintro b _ rfl
    refine Sound.ite (fun _ => Sound.err) fun hb => ?_
    simp only [Decidable.not_not] at hb
    subst hb
    refine Sound.bind (Sound.mapErr TableType.sound) fun t b1 h1 => ?_
    refine Sound.bind (Sound.mapErr expr'_sound) fun e b2 h2 => Sound.pure ?_
    simpa using BTable.init h1 h2
  · refine Sound.bind (Sound.mapErr (Sound.withChain TableType.sound fun _ => BTableType.nonempty))
      fun t b1 h1 => Sound.pure ?_
    simpa using BTable.type h1

theorem table_runs {bs : Bytes} {t : Table} (h : BTable bs t) : Runs (R := R) decodeTable bs t := by
  cases h with
  | @type _ tt h =>
    match bs, h with
    | [], h => exact absurd h BTableType.nonempty
    | b :: bs, h =>
      refine Runs.bind (b1 := [b]) (b2 := bs) (Runs.mapErr Runs.readByte) ?_
      refine Runs.ite_neg (BTableType.head h) ?_
      exact Runs.bind_pure (f := fun tt => (⟨tt, [.RefNull tt.reftype.ht]⟩ : Table))
        (Runs.mapErr (Runs.withChain (TableType.runs h)))
  | @init b1 b2 tt e h1 h2 =>
    refine Runs.bind (b1 := [0x40]) (b2 := 0x00 :: (b1 ++ b2)) (Runs.mapErr Runs.readByte) ?_
    refine Runs.ite_pos rfl ?_
    refine Runs.bind (b1 := [0x00]) (b2 := b1 ++ b2) (Runs.mapErr Runs.readByte) ?_
    refine Runs.ite_neg (by simp) ?_
    refine Runs.bind (Runs.mapErr (TableType.runs h1)) ?_
    exact Runs.bind_pure (f := fun e => (⟨tt, e⟩ : Table)) (Runs.mapErr (expr'_runs h2))

theorem table_g : G 1 L (decodeTable : Dec R _ _) (decodeTable : Dec S _ _) := by
  refine G.bind (gmap G.readByte) (j := 0) (fun b => ?_) (by omega)
  refine G.ite (fun _ => ?_) fun _ => ?_
  · refine G.bind0 (g0 (gmap G.readByte)) fun b => ?_
    refine G.ite (fun _ => G.err) fun _ => ?_
    refine G.bind0 (g0 (gmap TableType.g)) fun _ => ?_
    exact G.bind0 (g0 (gmap expr'_g)) fun _ => G.pure
  · exact G.bind0 (g0 (gmap (G.withChain (k := 1) TableType.g))) fun _ => G.pure

end Wadec
