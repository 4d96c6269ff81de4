import Verif.Proof.OpensOnly

/-! C72: the modules, valid or not, for which room for `d` calls is not enough. -/

namespace Wadec

open LawfulRead Spec

section
variable {R : Type} [LawfulRead R] {ε ε' α β : Type} {T : Bytes → Prop}

/-- `d` runs out of stack on the inputs with `T` and on no others. -/
def Exactly (T : Bytes → Prop) (d : Dec R ε α) : Prop := ∀ r, (d r).1 = .fuel ↔ T (avail r)

/-- `d` never runs out of stack. -/
def Never (d : Dec R ε α) : Prop := ∀ r, (d r).1 ≠ .fuel

theorem Never.good [ErrInfo ε] {k : Nat} {d : Dec R ε α} (h : ∀ L, G k L d d) : Never d := by
  intro r hf
  have := h _ r r (Nat.le_refl _) (List.prefix_refl _)
  generalize d r = o at this hf
  obtain ⟨res, r1⟩ := o
  cases res with
  | fuel => exact this.elim
  | _ => cases hf

theorem Never.pure {v : α} : Never (R := R) (ε := ε) (Pure.pure v) := fun _ h => by cases h
theorem Never.err {e : ε} : Never (R := R) (α := α) (Dec.err e) := fun _ h => by cases h
theorem Never.ite {c : Prop} [Decidable c] {a b : Dec R ε α} (ha : Never a) (hb : Never b) :
    Never (if c then a else b) := by split <;> assumption

theorem mapErr_fuel_iff {d : Dec R ε α} {f : ε → ε'} {r : R} : ((d.mapErr f) r).1 = .fuel ↔ (d r).1 = .fuel := by
  simp only [Dec.mapErr]
  generalize d r = o
  obtain ⟨res, r1⟩ := o
  cases res <;> simp

theorem bind_fuel_iff {d : Dec R ε α} {f : α → Dec R ε β} {r : R} :
    ((d >>= f) r).1 = .fuel ↔ (d r).1 = .fuel ∨ ∃ v r1, d r = (.ok v, r1) ∧ (f v r1).1 = .fuel := by
  simp only [Bind.bind, Dec.bind]
  generalize d r = o
  obtain ⟨res, r1⟩ := o
  cases res with
  | ok v =>
    constructor
    · exact fun h => .inr ⟨v, r1, rfl, h⟩
    · rintro (h | ⟨v', r', h1, h2⟩)
      · cases h
      · cases h1; exact h2
  | _ => simp

theorem Never.mapErr {d : Dec R ε α} {f : ε → ε'} (h : Never d) : Never (d.mapErr f) :=
  fun r hf => h r (mapErr_fuel_iff.1 hf)

theorem Never.bind {d : Dec R ε α} {f : α → Dec R ε β} (h : Never d) (hf : ∀ v, Never (f v)) : Never (d >>= f) := by
  intro r hr
  rcases bind_fuel_iff.1 hr with h' | ⟨v, r1, _, h'⟩
  · exact h r h'
  · exact hf v r1 h'

theorem Never.exactly {d : Dec R ε α} (h : Never d) : Exactly (fun _ => False) d := fun r => ⟨fun hf => h r hf, False.elim⟩

theorem Exactly.mapErr {d : Dec R ε α} {f : ε → ε'} (h : Exactly T d) : Exactly T (d.mapErr f) :=
  fun r => mapErr_fuel_iff.trans (h r)

theorem Exactly.iff {T' : Bytes → Prop} {d : Dec R ε α} (h : Exactly T d) (ht : ∀ x, T x ↔ T' x) : Exactly T' d :=
  fun r => (h r).trans (ht _)

theorem Exactly.last {d : Dec R ε α} {f : α → Dec R ε β} (h : Exactly T d) (hf : ∀ v, Never (f v)) :
    Exactly T (d >>= f) := by
  intro r
  rw [bind_fuel_iff, h r]
  exact or_iff_left fun ⟨v, r1, _, h'⟩ => hf v r1 h'

/-- A step that may run out of stack itself, and then the rest. -/
theorem Exactly.bind {B : Bytes → α → Prop} {T2 : α → Bytes → Prop} {d d' : Dec R ε α} {f : α → Dec R ε β} (hu : Under d d')
    (hs : Sound d B) (hr : ∀ b v, B b v → Runs d b v) (h : Exactly T d')
    (hf : ∀ v b, B b v → Exactly (T2 v) (f v)) : Exactly (fun x => T x ∨ Then B T2 x) (d' >>= f) := by
  intro r
  rw [bind_fuel_iff, h r]
  constructor
  · rintro (h1 | ⟨v, r1, h1, h2⟩)
    · exact .inl h1
    · obtain ⟨b, ha, hb⟩ := Sound.under hu hs r v r1 h1
      exact .inr ⟨b, v, avail r1, adv_avail ha, hb, (hf v b hb r1).1 h2⟩
  · rintro (h1 | ⟨b, v, y, h1, h2, h3⟩)
    · exact .inl h1
    · rcases hu r with e | e
      · obtain ⟨r1, e1, a1⟩ := hr b v h2 r y h1
        have hy := adv_avail a1
        rw [h1, List.append_cancel_left_eq] at hy
        subst hy
        exact .inr ⟨v, r1, e.trans e1, (hf v b h2 r1).2 h3⟩
      · exact .inl ((h r).1 e)

theorem Exactly.step {B : Bytes → α → Prop} {T2 : α → Bytes → Prop} {d : Dec R ε α} {f : α → Dec R ε β}
    (hn : Never d) (hs : Sound d B) (hr : ∀ b v, B b v → Runs d b v)
    (hf : ∀ v b, B b v → Exactly (T2 v) (f v)) : Exactly (Then B T2) (d >>= f) :=
  (Exactly.bind Under.refl hs hr hn.exactly hf).iff fun _ => by simp

/-- The same behind a step that changes the errors. -/
theorem Exactly.stepE {B : Bytes → α → Prop} {T2 : α → Bytes → Prop} {d : Dec R ε α} {g : ε → ε'} {f : α → Dec R ε' β}
    (hn : Never d) (hs : Sound d B) (hr : ∀ b v, B b v → Runs d b v)
    (hf : ∀ v b, B b v → Exactly (T2 v) (f v)) : Exactly (Then B T2) (d.mapErr g >>= f) :=
  Exactly.step hn.mapErr (Sound.mapErr hs) (fun b v h => Runs.mapErr (hr b v h)) hf

theorem Exactly.withTake {n : Nat} {d : Dec (Take R) ε α} (h : Exactly T d) :
    Exactly (fun x => T (x.take n)) (Dec.withTake n d : Dec R ε _) := by
  intro r
  have := h ⟨n, r⟩
  simp only [Dec.withTake]
  rw [show avail (⟨n, r⟩ : Take R) = (avail r).take n from rfl] at this
  rw [← this]
  generalize d ⟨n, r⟩ = o
  obtain ⟨res, r1⟩ := o
  cases res <;> simp

/-! ### Lists -/

theorem listLoop_exactly {B : Bytes → α → Prop} {f f' : Dec R ε α} (hu : Under f f') (hs : Sound f B)
    (hr : ∀ b v, B b v → Runs f b v) (h : Exactly T f') : ∀ n i items,
      Exactly (Then (BSeq B) fun l y => l.length < n ∧ T y)
        (decodeListLoop (fun (_ : Unit) => do let x ← f'; pure (x, ())) n i () items)
  | 0, i, items => (Never.pure.exactly).iff fun x => by simp [Then]
  | n + 1, i, items => by
    rw [decodeListLoop]
    have key : Exactly (fun x => T x ∨ Then (fun b (v : α × Unit) => B b v.1) (fun _ => Then (BSeq B) fun l y => l.length < n ∧ T y) x)
        ((Dec.mapErr (fun err => DecodeListError.ParseElement i err) (do let x ← f'; pure (x, ()))) >>=
          fun x => decodeListLoop (fun (_ : Unit) => do let x ← f'; pure (x, ())) n (i + 1) x.2 (items ++ [x.1])) := by
      refine Exactly.bind (B := fun b (v : α × Unit) => B b v.1)
        (d := Dec.mapErr (fun err => DecodeListError.ParseElement i err) (do let x ← f; pure (x, ())))
        ?_ ?_ ?_ ?_ ?_
      · exact Under.mapErr (Under.last hu)
      · exact Sound.mapErr (Sound.bind hs fun x b hb => Sound.pure (by simpa using hb))
      · exact fun b v hb => Runs.mapErr (Runs.bind_pure (f := fun x => (x, ())) (hr b v.1 hb))
      · exact Exactly.mapErr (h.last fun _ => Never.pure)
      · exact fun v b _ => listLoop_exactly hu hs hr h n (i + 1) _
    refine key.iff fun x => ?_
    constructor
    · rintro (h1 | ⟨b, v, y, rfl, hb, b2, l, z, rfl, hl, hlt, ht⟩)
      · exact ⟨[], [], x, rfl, .nil, by simp, h1⟩
      · exact ⟨b ++ b2, v.1 :: l, z, by simp, .cons hb hl, by simp; omega, ht⟩
    · rintro ⟨b, l, z, rfl, hl, hlt, ht⟩
      cases hl with
      | nil => exact .inl ht
      | @cons b bs v l h1 h2 =>
        simp only [List.length_cons] at hlt
        exact .inr ⟨b, (v, ()), bs ++ z, by simp, h1, bs, l, z, rfl, h2, by omega, ht⟩

theorem list_exactly {B : Bytes → α → Prop} {f f' : Dec R ε α} (hu : Under f f') (hs : Sound f B)
    (hr : ∀ b v, B b v → Runs f b v) (h : Exactly T f') : Exactly (InList B T) (decodeList f') := by
  unfold decodeList decodeListS
  refine Exactly.last ?_ fun _ => Never.pure
  refine Exactly.stepE (Never.good fun _ => decodeU32_g) decodeU32_sound (fun _ _ => decodeU32_runs) fun n b _ => ?_
  refine (Exactly.step (B := fun b _ => b = []) (T2 := fun _ => Then (BSeq B) fun l y => l.length < n.toNat ∧ T y)
    (fun r h => by cases h) Sound.reserve ?_ fun _ _ _ => listLoop_exactly hu hs hr h _ _ _).iff fun x => ?_
  · rintro b v rfl
    exact Runs.reserve
  · constructor
    · rintro ⟨_, _, y, rfl, rfl, hy⟩
      exact hy
    · exact fun hx => ⟨[], (), x, rfl, rfl, hx⟩


/-! ### Entries -/

theorem expr_exactly {d : Nat} : Exactly (R := R) (Leads d) (decodeExprWithin d) := fun r =>
  ⟨expr_stuck, fun ⟨bs, rest, ha, hb⟩ => expr_opens hb r rest ha⟩

theorem expr'_exactly {d : Nat} : Exactly (R := R) (Leads d) (decodeExprWithin' d) := expr_exactly.last fun _ => Never.pure

theorem global_exactly {d : Nat} : Exactly (R := R) (InEntry (Leads d) .Global) (parseGlobalWithin d) :=
  Exactly.stepE (Never.good fun _ => GlobalType.g) GlobalType.sound (fun _ _ => GlobalType.runs) fun _ _ _ =>
    expr'_exactly.mapErr.last fun _ => Never.pure

theorem Exactly.ite {T1 T2 : Bytes → Prop} {c : Prop} [Decidable c] {a b : Dec R ε α} (ha : c → Exactly T1 a)
    (hb : ¬c → Exactly T2 b) : Exactly (fun x => (c ∧ T1 x) ∨ (¬c ∧ T2 x)) (if c then a else b) := by
  intro r
  by_cases hc : c
  · simp only [hc, if_true, true_and, not_true, false_and, or_false]
    exact ha hc r
  · simp only [hc, if_false, false_and, not_false_eq_true, true_and, false_or]
    exact hb hc r

theorem data_exactly {d : Nat} : Exactly (R := R) (InEntry (Leads d) .Data) (parseDataWithin d) := by
  refine Exactly.stepE (Never.good fun _ => decodeU32_g) decodeU32_sound (fun _ _ => decodeU32_runs) fun n _ _ => ?_
  have hb : Never (R := R) decodeByteVector := Never.good fun _ => byteVec_g
  refine (Exactly.ite (T1 := Leads d) (fun _ => ?_) fun _ => Exactly.ite (T1 := fun _ => False) (fun _ => ?_) fun _ =>
    Exactly.ite (T1 := Then BMemIdx (fun _ => Leads d)) (T2 := fun _ => False) (fun _ => ?_) fun _ => Never.err.exactly).iff ?_
  · exact expr'_exactly.mapErr.last fun _ => hb.mapErr.bind fun _ => Never.pure
  · exact (hb.mapErr.bind fun _ => Never.pure).exactly
  · exact Exactly.stepE (Never.good fun _ => MemIdx.g) MemIdx.sound (fun _ _ => MemIdx.runs) fun _ _ _ =>
      expr'_exactly.mapErr.last fun _ => hb.mapErr.bind fun _ => Never.pure
  · intro x
    by_cases h0 : n = 0
    · subst h0; simp
    · by_cases h1 : n = 1
      · subst h1; simp
      · simp [h0, h1]

theorem table_exactly {d : Nat} : Exactly (R := R) (InEntry (Leads d) .Table) (decodeTableWithin d) := by
  have hn : Never (R := R) readByte := Never.good fun _ => G.readByte
  have hr : ∀ b (v : UInt8), b = [v] → Runs (R := R) readByte b v := by
    rintro _ v rfl
    exact Runs.readByte
  refine (Exactly.stepE (T2 := fun v x => v = 0x40 ∧ ∃ y, x = 0x00 :: y ∧ Then BTableType (fun _ => Leads d) y)
    hn Sound.readByte hr fun b _ _ => ?_).iff ?_
  · refine (Exactly.ite (T1 := fun x => ∃ y, x = 0x00 :: y ∧ Then BTableType (fun _ => Leads d) y) (T2 := fun _ => False)
      (fun _ => ?_) fun _ => ?_).iff ?_
    · refine (Exactly.stepE (T2 := fun v x => v = 0x00 ∧ Then BTableType (fun _ => Leads d) x) hn Sound.readByte hr
        fun v _ _ => ?_).iff fun x => ?_
      · refine (Exactly.ite (T1 := fun _ => False) (T2 := Then BTableType (fun _ => Leads d)) (fun _ => Never.err.exactly)
          fun _ => ?_).iff ?_
        · exact Exactly.stepE (Never.good fun _ => TableType.g) TableType.sound (fun _ _ => TableType.runs) fun _ _ _ =>
            expr'_exactly.mapErr.last fun _ => Never.pure
        · intro x; simp
      · constructor
        · rintro ⟨_, v, y, rfl, rfl, rfl, hy⟩
          exact ⟨y, rfl, hy⟩
        · rintro ⟨y, rfl, hy⟩
          exact ⟨[0x00], 0x00, y, rfl, rfl, rfl, hy⟩
    · refine ((Never.mapErr ?_).bind fun _ => Never.pure).exactly
      exact Never.good fun _ => G.withChain TableType.g
    · intro x; simp
  · intro x
    constructor
    · rintro ⟨_, v, y, rfl, rfl, rfl, z, rfl, hz⟩
      exact ⟨z, rfl, hz⟩
    · rintro ⟨z, rfl, hz⟩
      exact ⟨[0x40], 0x40, 0x00 :: z, rfl, rfl, rfl, z, rfl, hz⟩

theorem elemExprs_exactly {d : Nat} : Exactly (R := R) (InList BExpr (Leads d)) (elemExprsWithin d) :=
  (list_exactly expr'_under expr'_sound (fun _ _ => expr'_runs) expr'_exactly).mapErr

theorem elem_exactly {d : Nat} : Exactly (R := R) (InEntry (Leads d) .Element) (parseElemWithin d) := by
  refine Exactly.stepE (Never.good fun _ => decodeU32_g) decodeU32_sound (fun _ _ => decodeU32_runs) fun n _ _ => ?_
  have hk : Never (R := R) parseElemKind := Never.good fun _ => elemKind_g
  have hy : Never (R := R) elemFuncs := Never.good fun _ => elemFuncs_g
  have hrt : Never (R := R) RefType.decode := Never.good fun _ => RefType.g
  have htab : Never (R := R) TableIdx.decode := Never.good fun _ => TableIdx.g
  have kinds : ∀ f : RefType → List FuncIdx → Elem, Never (R := R) (do
      let rt ← parseElemKind.mapErr DecodeElementError.DecodeElementKind
      let y ← elemFuncs
      pure (f rt y)) := fun f => hk.mapErr.bind fun _ => hy.bind fun _ => Never.pure
  have exprs : ∀ f : RefType → List Expr → Elem, Exactly (R := R) (Then BRefType fun _ => InList BExpr (Leads d)) (do
      let rt ← RefType.decode.mapErr DecodeElementError.DecodeReferenceType
      let el ← elemExprsWithin d
      pure (f rt el)) := fun f =>
    Exactly.stepE hrt RefType.sound (fun _ _ => RefType.runs) fun _ _ _ => elemExprs_exactly.last fun _ => Never.pure
  have eB : ∀ {g : ParseExpressionError → DecodeElementError} {T : Bytes → Prop} {f : Expr → Dec R DecodeElementError Elem},
      (∀ e, Exactly T (f e)) → Exactly (fun x => Leads d x ∨ Then BExpr (fun _ => T) x) ((decodeExprWithin' d).mapErr g >>= f) :=
    fun hf => Exactly.bind (Under.mapErr expr'_under) (Sound.mapErr expr'_sound) (fun _ _ h => Runs.mapErr (expr'_runs h))
      expr'_exactly.mapErr fun e _ _ => hf e
  refine (Exactly.ite (T1 := Leads d) (fun _ => ?_) fun _ =>
    Exactly.ite (T1 := fun _ => False) (fun _ => (kinds _).exactly) fun _ =>
    Exactly.ite (T1 := Then BTableIdx (fun _ => Leads d)) (fun _ => ?_) fun _ =>
    Exactly.ite (T1 := fun _ => False) (fun _ => (kinds _).exactly) fun _ =>
    Exactly.ite (T1 := fun x => Leads d x ∨ Then BExpr (fun _ => InList BExpr (Leads d)) x) (fun _ => ?_) fun _ =>
    Exactly.ite (T1 := Then BRefType (fun _ => InList BExpr (Leads d))) (fun _ => exprs _) fun _ =>
    Exactly.ite (T1 := Then BTableIdx (fun _ y => Leads d y ∨ Then BExpr (fun _ => Then BRefType fun _ =>
      InList BExpr (Leads d)) y)) (fun _ => ?_) fun _ =>
    Exactly.ite (T1 := Then BRefType (fun _ => InList BExpr (Leads d))) (T2 := fun _ => False) (fun _ => exprs _) fun _ =>
      Never.err.exactly).iff ?_
  · exact expr'_exactly.mapErr.last fun _ => hy.bind fun _ => Never.pure
  · exact Exactly.stepE htab TableIdx.sound (fun _ _ => TableIdx.runs) fun _ _ _ =>
      expr'_exactly.mapErr.last fun _ => kinds _
  · exact eB fun _ => elemExprs_exactly.last fun _ => Never.pure
  · exact Exactly.stepE htab TableIdx.sound (fun _ _ => TableIdx.runs) fun _ _ _ => eB fun _ => exprs _
  · intro x
    unfold InElem
    by_cases h0 : n = 0
    · subst h0; simp
    by_cases h1 : n = 1
    · subst h1; simp
    by_cases h2 : n = 2
    · subst h2; simp
    by_cases h3 : n = 3
    · subst h3; simp
    by_cases h4 : n = 4
    · subst h4; simp
    by_cases h5 : n = 5
    · subst h5; simp
    by_cases h6 : n = 6
    · subst h6; simp
    simp [h0, h1, h2, h3, h4, h5, h6]

theorem code_exactly {d : Nat} : Exactly (R := R) (InEntry (Leads d) .Code) (parseCodeWithin d) := by
  refine Exactly.stepE (Never.good fun _ => decodeU32_g) decodeU32_sound (fun _ _ => decodeU32_runs) fun size _ _ => ?_
  refine Exactly.last (Exactly.withTake ?_) fun _ => Never.ite Never.err Never.pure
  unfold parseCodeBodyWithin
  refine (Exactly.stepE (B := fun b v => ∃ b1 b2, b = b1 ++ b2 ∧ BU 32 b1 v.1.length ∧ Steps LocalStep 0 b2 v.1 v.2)
    (T2 := fun _ => Leads d) ?_ (listS_sound codeLocal_sound) ?_ fun _ _ _ => ?_).iff fun x => ?_
  · refine Never.good (k := 1) fun L => ?_
    refine listS_g (I := fun st => st.toNat < 2 ^ 32) (fun st L' _ h => g0 (codeLocal_g h)) ?_ (by decide)
    intro st h r v r' heq
    obtain ⟨_, _, h⟩ := codeLocal_sound st r v r' heq
    exact h.2.2
  · rintro _ ⟨ls, st⟩ ⟨b1, b2, rfl, h1, h2⟩
    exact listS_runs codeLocal_runs (Wadec.BU.lt h1) h1 h2
  · exact expr_exactly.mapErr.last fun _ => Never.pure
  · constructor
    · rintro ⟨_, ⟨ls, st⟩, y, rfl, ⟨b1, b2, rfl, h1, h2⟩, hy⟩
      obtain ⟨h3, h4, h5⟩ := localSteps_seq h2
      simp only at h1 h3 h4 h5
      refine ⟨_, _, y, rfl, list_map (fun l : Local => (l.count, l.t)) (fun _ _ h => h) (BList.mk h1 h3), ?_, hy⟩
      rw [← expandLocals_eq, length_expandLocals]
      by_cases hl : ls = []
      · subst hl; simp [sumLocals]
      · have := h5 hl
        have e0 : (0 : UInt64).toNat = 0 := rfl
        omega
    · rintro ⟨b, runs, y, rfl, h1, h2, hy⟩
      obtain ⟨ls, h6, rfl⟩ := list_unmap (A := BLocal) (fun l : Local => (l.count, l.t))
        (fun b y h => ⟨⟨y.1, y.2⟩, h, rfl⟩) h1
      rw [← expandLocals_eq, length_expandLocals] at h2
      cases h6 with
      | mk h4 h5 =>
        obtain ⟨st', h6⟩ := seq_localSteps h5 0 (by
          have e0 : (0 : UInt64).toNat = 0 := rfl
          omega)
        exact ⟨_, (ls, st'), y, rfl, ⟨_, _, rfl, h4, h6⟩, hy⟩

/-! ### Sections -/

/-- The contents of a section up to an expression. -/
def InContents (d : Nat) (k : SectionKind) : Bytes → Prop :=
  Then BU32 fun n => Then (Entries k) fun m y => m < n.toNat ∧ InEntry (Leads d) k y

theorem inList_iff {k : SectionKind} {B : Bytes → α → Prop} (h : ∀ b, IsEntry k b ↔ ∃ v, B b v) {d : Nat} (x : Bytes) :
    InList B (InEntry (Leads d) k) x ↔ InContents d k x := by
  have h1 : ∀ {b : Bytes} {l : List α}, BSeq B b l → Entries k b l.length := by
    intro b l hl
    induction hl with
    | nil => exact .nil
    | cons h1 _ ih => exact .cons ((h _).2 ⟨_, h1⟩) ih
  have h2 : ∀ {b : Bytes} {n : Nat}, Entries k b n → ∃ l, BSeq B b l ∧ l.length = n := by
    intro b n hl
    induction hl with
    | nil => exact ⟨[], .nil, rfl⟩
    | cons h1 _ ih =>
      obtain ⟨l, h3, rfl⟩ := ih
      obtain ⟨v, hv⟩ := (h _).1 h1
      exact ⟨v :: l, .cons hv h3, rfl⟩
  constructor
  · rintro ⟨b, n, y, rfl, hn, b2, l, z, rfl, hl, hlt, ht⟩
    exact ⟨b, n, _, rfl, hn, b2, l.length, z, rfl, h1 hl, hlt, ht⟩
  · rintro ⟨b, n, y, rfl, hn, b2, m, z, rfl, hl, hlt, ht⟩
    obtain ⟨l, hs, rfl⟩ := h2 hl
    exact ⟨b, n, _, rfl, hn, b2, l, z, rfl, hs, hlt, ht⟩

theorem code_entry (b : Bytes) : IsEntry .Code b ↔ ∃ v, BCodeD b v :=
  ⟨fun ⟨_, h⟩ => let ⟨d, hd, _⟩ := Wadec.BCode.toBCodeD h; ⟨d, hd⟩, fun ⟨_, h⟩ => ⟨_, h.toBCode⟩⟩

theorem fillFuncs_never : ∀ codes i funcs enc, Never (R := R) (fillFuncs codes i funcs enc)
  | [], _, _, _ => Never.pure
  | code :: codes, i, funcs, enc => by
    rw [fillFuncs]
    split
    · exact fun r h => by cases h
    · exact fillFuncs_never codes _ _ _

theorem custom_never : Never (R := R) decodeSectionCustom := by
  refine Never.bind (Never.mapErr (Never.good fun _ => name_g)) fun nm => Never.bind (Never.mapErr ?_) fun _ => Never.pure
  intro r h
  cases hf : fin r with
  | eof =>
    obtain ⟨r2, h2⟩ := (readToEndLoop_spec (Read.weight r + 1) [] r (by omega)).1 hf
    simp only [readToEnd, h2] at h
    cases h
  | fail e =>
    obtain ⟨r2, h2⟩ := (readToEndLoop_spec (Read.weight r + 1) [] r (by omega)).2 e hf
    simp only [readToEnd, h2] at h
    cases h

theorem sectionBody_exactly {d : Nat} {k : SectionKind} {st : LoopState} :
    Exactly (R := R) (InContents d k) (decodeSectionBodyWithin d k st) := by
  have other : Never (R := R) (decodeSectionBodyWithin d k st) → (∀ y, ¬ InEntry (Leads d) k y) →
      Exactly (R := R) (InContents d k) (decodeSectionBodyWithin d k st) := by
    refine fun hn he => hn.exactly.iff fun x => ⟨False.elim, ?_⟩
    rintro ⟨_, _, _, _, _, _, _, _, _, _, _, h⟩
    exact he _ h
  have plain : k ≠ .Custom → (decodeSectionBodyWithin d k st : Dec R _ _) = decodeSectionBody k st →
      Never (R := R) (decodeSectionBodyWithin d k st) := by
    intro hk e
    rw [e]
    exact Never.good fun _ => body_g hk st
  cases k with
  | Custom => exact other (custom_never.mapErr.bind fun _ => Never.pure) fun _ h => h
  | «Type» => exact other (plain (by decide) rfl) fun _ h => h
  | Import => exact other (plain (by decide) rfl) fun _ h => h
  | Function => exact other (plain (by decide) rfl) fun _ h => h
  | Memory => exact other (plain (by decide) rfl) fun _ h => h
  | Tag => exact other (plain (by decide) rfl) fun _ h => h
  | Export => exact other (plain (by decide) rfl) fun _ h => h
  | Start => exact other (plain (by decide) rfl) fun _ h => h
  | DataCount => exact other (plain (by decide) rfl) fun _ h => h
  | Table =>
    exact ((list_exactly table_under table_sound (fun _ _ => table_runs) table_exactly).mapErr.mapErr.last
      fun _ => Never.pure).iff (inList_iff fun _ => Iff.rfl)
  | Global =>
    exact ((list_exactly global_under global_sound (fun _ _ => global_runs) global_exactly).mapErr.mapErr.last
      fun _ => Never.pure).iff (inList_iff fun _ => Iff.rfl)
  | Element =>
    exact ((list_exactly elem_under elem_sound (fun _ _ => elem_runs) elem_exactly).mapErr.mapErr.last
      fun _ => Never.pure).iff (inList_iff fun _ => Iff.rfl)
  | Code =>
    exact ((list_exactly code_under code_sound (fun _ _ => code_runs) code_exactly).mapErr.mapErr.last
      fun _ => Never.ite Never.err ((fillFuncs_never _ _ _ _).bind fun _ => Never.pure)).iff (inList_iff code_entry)
  | Data =>
    refine ((list_exactly data_under data_sound (fun _ _ => data_runs) data_exactly).mapErr.mapErr.last
      fun _ => ?_).iff (inList_iff fun _ => Iff.rfl)
    split
    · exact Never.ite Never.err Never.pure
    · exact Never.pure

theorem section_exactly {d : Nat} {pre : List (UInt32 × Section)} {h : SectionHeader}
    (hp : Acceptable (pre.map Prod.snd)) :
    Exactly (R := R) (fun x => MayFollow (pre.map Prod.snd) h.kind ∧ InContents d h.kind (x.take h.size.toNat))
      (decodeSectionWithin d h (stateOf pre)) := by
  have hm : ∀ s : Section, s.kind = h.kind →
      (MayFollow (pre.map Prod.snd) h.kind ↔ Sorted (nonCustom (pre.map Prod.snd ++ [s]))) := by
    intro s hs
    have e : nonCustom [s] = [h.kind].filter (· ≠ .Custom) := by rw [← hs]; rfl
    rw [sorted_iff, nonCustom_append, e]
    exact Iff.rfl
  obtain ⟨s0, hs0⟩ := exists_kind h.kind
  rcases validate_kind (R := R) h.kind (sorted_iff.2 hp.order) with ⟨ho, hv⟩ | ⟨ho, p, _, _, _, hv⟩
  · have hmay := (hm s0 hs0).2 (ho s0 hs0)
    have e : (decodeSectionWithin d h (stateOf pre) : Dec R _ _) = (do
        let (st, limit) ← Dec.withTake h.size.toNat (decodeSectionBodyWithin d h.kind (stateOf pre))
        if limit ≠ 0 then
          Dec.err (.SectionSizeMismatch h.kind h.size (UInt64.ofNat (h.size.toNat - limit)))
        else pure (finishSection h st)) := by
      simp only [decodeSectionWithin, hv]
      rfl
    rw [e]
    refine ((Exactly.withTake sectionBody_exactly).last fun _ => Never.ite Never.err Never.pure).iff fun x => ?_
    simp [hmay]
  · have hmay : ¬ MayFollow (pre.map Prod.snd) h.kind := fun h' => ho s0 hs0 ((hm s0 hs0).1 h')
    have hn : Never (R := R) (decodeSectionWithin d h (stateOf pre)) := by
      simp only [decodeSectionWithin, hv]
      exact fun r h => by cases h
    exact hn.exactly.iff fun x => by simp [hmay]

/-! ### The loop over the sections -/

/-- Sections, and in one more of them an expression. -/
def InSections (d : Nat) (pre : List (UInt32 × Section)) (x : Bytes) : Prop :=
  ∃ bs secs k b size rest, x = bs ++ (sectionId k :: (b ++ rest)) ∧ BSeq BSection bs secs ∧
    Acceptable ((pre ++ secs).map Prod.snd) ∧ BU32 b size ∧ MayFollow ((pre ++ secs).map Prod.snd) k ∧
    InContents d k (rest.take size.toNat)

theorem loop_exactly {d : Nat} : ∀ (n : Nat) (pre : List (UInt32 × Section)) (r : R), Acceptable (pre.map Prod.snd) →
    (avail r).length < n → ((sectionLoopWithin d n (stateOf pre) r).1 = .fuel ↔ InSections d pre (avail r))
  | 0, _, _, _, h => absurd h (by omega)
  | n + 1, pre, r, hp, hl => by
    rw [sectionLoopWithin, bind_fuel_iff, mapErr_fuel_iff]
    cases ha : avail r with
    | nil =>
      obtain ⟨r', e⟩ := header_nil ha
      constructor
      · rintro (h | ⟨v, r1, h1, h2⟩)
        · rw [e] at h
          split at h <;> cases h
        · rw [mapErr_ok_iff, e] at h1
          split at h1
          · cases h1; cases h2
          · cases h1
      · rintro ⟨bs, secs, k, b, size, rest, h, _⟩
        simp at h
    | cons id tail =>
      obtain ⟨r1, a1, e1⟩ := header_cons ha
      have av1 : avail r1 = tail := by
        have := adv_avail a1
        rw [ha] at this
        simpa using this.symm
      rw [e1]
      have hlen : tail.length < n := by rw [ha] at hl; simpa using hl
      constructor
      · rintro (h | ⟨v, r2, h1, h2⟩)
        · exact absurd h ((Never.good fun _ => headerRest_g) r1)
        · rw [mapErr_ok_iff, e1] at h1
          obtain ⟨b, a2, k, size, rfl, rfl, hb⟩ := headerRest_sound r1 v r2 h1
          have av2 := adv_avail a2
          rw [av1] at av2
          simp only at h2
          rcases bind_fuel_iff.1 h2 with h3 | ⟨st, r3, h3, h4⟩
          · obtain ⟨h4, h5⟩ := (section_exactly hp r2).1 h3
            exact ⟨[], [], k, b, size, avail r2, by simp [av2], .nil, by simpa using hp, hb, by simpa using h4, h5⟩
          · obtain ⟨b2, a3, s, hs, hsl, hc, hacc, rfl⟩ := Sound.under section_under (section_sound hp) r2 _ _ h3
            simp only at hs hsl
            subst hs
            have av3 := adv_avail a3
            have hle : (avail r3).length < n := by
              rw [av2, av3] at hlen
              simp only [List.length_append] at hlen
              omega
            obtain ⟨bs, secs, k', b', size', rest, h5, h6, h7, h8, h9, h10⟩ :=
              (loop_exactly n _ r3 (by simpa using hacc) hle).1 h4
            refine ⟨(sectionId s.kind :: (b ++ b2)) ++ bs, (size, s) :: secs, k', b', size', rest, ?_,
              .cons (.mk hb hsl hc) h6, by simpa using h7, h8, by simpa using h9, h10⟩
            rw [av2, av3, h5]
            simp
      · rintro ⟨bs, secs, k, b, size, rest, h1, h2, h3, h4, h5, h6⟩
        cases h2 with
        | nil =>
          simp only [List.nil_append, List.cons.injEq] at h1
          obtain ⟨rfl, rfl⟩ := h1
          obtain ⟨r2, e2, a2⟩ := headerRest_runs (R := R) (k := k) h4 r1 _ av1
          have av2 : avail r2 = rest := by
            have := adv_avail a2
            rw [av1] at this
            simpa using this.symm
          refine .inr ⟨_, r2, mapErr_ok_iff.2 (e1.trans e2), bind_fuel_iff.2 (.inl ?_)⟩
          exact (section_exactly hp r2).2 ⟨by simpa using h5, by rw [av2]; exact h6⟩
        | @cons bb bs _ secs h7 h8 =>
          cases h7 with
          | @mk b1 b2 size' s hsz hsl hc =>
            simp only [List.cons_append, List.append_assoc, List.cons.injEq] at h1
            obtain ⟨rfl, rfl⟩ := h1
            obtain ⟨r2, e2, a2⟩ := headerRest_runs (R := R) (k := s.kind) hsz r1 _ av1
            have av2 : avail r2 = b2 ++ (bs ++ (sectionId k :: (b ++ rest))) := by
              have := adv_avail a2
              rw [av1] at this
              simpa using this.symm
            have hacc : Acceptable (pre.map Prod.snd ++ [s]) := by
              apply Acceptable.prefix (b := secs.map Prod.snd)
              simpa using h3
            refine .inr ⟨_, r2, mapErr_ok_iff.2 (e1.trans e2), bind_fuel_iff.2 ?_⟩
            rcases section_under (d := d) (h := ⟨s.kind, size'⟩) (st := stateOf pre) r2 with e3 | e3
            · obtain ⟨r3, e4, a3⟩ := section_runs (R := R) hc hsl hacc r2 _ av2
              have av3 : avail r3 = bs ++ (sectionId k :: (b ++ rest)) := by
                have := adv_avail a3
                rw [av2] at this
                simpa using this.symm
              refine .inr ⟨_, r3, e3.trans e4, (loop_exactly n _ r3 (by simpa using hacc) ?_).2 ?_⟩
              · rw [av3]
                simp only [List.length_append, List.length_cons] at hlen ⊢
                omega
              · rw [av3]
                exact ⟨bs, secs, k, b, size, rest, rfl, h8, by simpa using h3, h4, by simpa using h5, h6⟩
            · exact .inl e3

theorem finalChecks_never {st : LoopState} : Never (R := R) (finalChecks st) := by
  exact Never.ite Never.err (Never.ite Never.err (Never.ite Never.err Never.pure))

theorem module_exactly {d : Nat} : Exactly (R := R) (InModule (Leads d)) (decodeModuleWithin d) := by
  intro r
  simp only [decodeModuleWithin]
  have h1 : ∀ r' : R, (avail r').length < Read.weight r + 1 →
      (((sectionLoopWithin d (Read.weight r + 1) ⟨Module.default, false, false⟩ >>= finalChecks) r').1 = .fuel ↔
        InSections d [] (avail r')) := by
    intro r' hl
    rw [bind_fuel_iff]
    refine (or_iff_left fun ⟨v, r1, _, h'⟩ => finalChecks_never r1 h').trans ?_
    exact loop_exactly _ [] r' Acceptable.nil hl
  have hw := avail_le r
  rw [bind_fuel_iff, mapErr_fuel_iff]
  constructor
  · rintro (h | ⟨_, r1, h2, h3⟩)
    · exact absurd h ((Never.good fun _ => preamble_g) r)
    · rw [mapErr_ok_iff] at h2
      obtain ⟨_, a1, rfl⟩ := preamble_sound r _ _ h2
      have av := adv_avail a1
      obtain ⟨bs, secs, k, b, size, rest, h4, h5, h6, h7, h8, h9⟩ := (h1 r1 (by
        rw [av, List.length_append] at hw
        omega)).1 h3
      refine ⟨_, k, size, rest, ?_, h8, h9⟩
      rw [av, h4]
      exact .mk h5 h6 h7
  · rintro ⟨_, k, size, rest, h4, h5, h6⟩
    generalize hx : avail r = x at h4
    cases h4 with
    | @mk bs b1 _ secs _ _ h7 h8 h9 =>
      obtain ⟨r1, e1, a1⟩ := preamble_runs (R := R) r _ hx
      have av : avail r1 = bs ++ (sectionId k :: (b1 ++ rest)) := by
        have := adv_avail a1
        rw [hx] at this
        simpa using this.symm
      refine .inr ⟨_, r1, mapErr_ok_iff.2 e1, (h1 r1 ?_).2 ?_⟩
      · rw [hx, ← av, List.length_append] at hw
        omega
      · rw [av]
        exact ⟨bs, secs, k, b1, size, rest, rfl, h7, h8, h9, h5, h6⟩

end
end Wadec
