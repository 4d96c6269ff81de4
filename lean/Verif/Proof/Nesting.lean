import Verif.Proof.DepthOnly
import Verif.Proof.Module
import Verif.Proof.Depth

/-! C72: what a call stack of limited size can decode. -/

namespace Wadec

open LawfulRead Spec

section
variable {R : Type} [Read R]

/-- The limited decoder `d'` succeeds exactly where `d` succeeds with a result that satisfies `P`. -/
def Fits {ε α : Type} (P : α → Prop) (d d' : Dec R ε α) : Prop :=
  ∀ r v r', d' r = (.ok v, r') ↔ d r = (.ok v, r') ∧ P v

variable {ε ε' α β : Type}

theorem Fits.same {P : α → Prop} {d : Dec R ε α} (h : ∀ r v r', d r = (.ok v, r') → P v) : Fits P d d :=
  fun r v r' => ⟨fun e => ⟨e, h r v r' e⟩, And.left⟩

theorem Fits.iff {P Q : α → Prop} {d d' : Dec R ε α} (h : Fits P d d') (hq : ∀ v, P v ↔ Q v) : Fits Q d d' :=
  fun r v r' => by rw [h r v r', hq v]

theorem bind_ok_iff {d : Dec R ε α} {f : α → Dec R ε β} {r : R} {w : β} {r' : R} :
    (d >>= f) r = (.ok w, r') ↔ ∃ v r1, d r = (.ok v, r1) ∧ f v r1 = (.ok w, r') := by
  simp only [Bind.bind, Dec.bind]
  constructor
  · intro h
    generalize hd : d r = o at h
    obtain ⟨res, r1⟩ := o
    cases res with
    | ok v => exact ⟨v, r1, rfl, h⟩
    | _ => cases h
  · rintro ⟨v, r1, h1, h2⟩
    rw [h1]
    exact h2

theorem mapErr_ok_iff {d : Dec R ε α} {g : ε → ε'} {r : R} {v : α} {r' : R} :
    d.mapErr g r = (.ok v, r') ↔ d r = (.ok v, r') := by
  simp only [Dec.mapErr]
  generalize d r = o
  obtain ⟨res, r1⟩ := o
  cases res <;> simp

theorem pure_ok_iff {v w : α} {r r' : R} : (pure v : Dec R ε α) r = (.ok w, r') ↔ v = w ∧ r = r' := by
  show (Res.ok v, r) = _ ↔ _
  simp

theorem Fits.mapErr {P : α → Prop} {d d' : Dec R ε α} {g : ε → ε'} (h : Fits P d d') :
    Fits P (d.mapErr g) (d'.mapErr g) := by
  intro r v r'
  rw [mapErr_ok_iff, mapErr_ok_iff]
  exact h r v r'

theorem Fits.bind {P : α → Prop} {Q : β → Prop} {d d' : Dec R ε α} {f f' : α → Dec R ε β} (h : Fits P d d')
    (hf : ∀ v, P v → Fits Q (f v) (f' v)) (hb : ∀ v r w r', f v r = (.ok w, r') → Q w → P v) :
    Fits Q (d >>= f) (d' >>= f') := by
  intro r w r'
  rw [bind_ok_iff, bind_ok_iff]
  constructor
  · rintro ⟨v, r1, h1, h2⟩
    obtain ⟨h1, hv⟩ := (h _ _ _).1 h1
    obtain ⟨h2, hw⟩ := (hf v hv _ _ _).1 h2
    exact ⟨⟨v, r1, h1, h2⟩, hw⟩
  · rintro ⟨⟨v, r1, h1, h2⟩, hw⟩
    have hv := hb _ _ _ _ h2 hw
    exact ⟨v, r1, (h _ _ _).2 ⟨h1, hv⟩, (hf v hv _ _ _).2 ⟨h2, hw⟩⟩

theorem Fits.last {P : α → Prop} {Q : β → Prop} {d d' : Dec R ε α} {f : α → Dec R ε β} (h : Fits P d d')
    (hb : ∀ v r w r', f v r = (.ok w, r') → (Q w ↔ P v)) : Fits Q (d >>= f) (d' >>= f) :=
  Fits.bind h (fun v hv => Fits.same fun r w r' e => (hb v r w r' e).2 hv) fun v r w r' e => (hb v r w r' e).1

theorem Fits.step {Q : β → Prop} {d : Dec R ε α} {f f' : α → Dec R ε β} (hf : ∀ v, Fits Q (f v) (f' v)) :
    Fits Q (d >>= f) (d >>= f') :=
  Fits.bind (P := fun _ => True) (Fits.same fun _ _ _ _ => trivial) (fun v _ => hf v) fun _ _ _ _ _ _ => trivial

theorem Fits.ite {P : α → Prop} {p : Prop} [Decidable p] {a a' b b' : Dec R ε α} (ha : p → Fits P a a')
    (hb : ¬p → Fits P b b') : Fits P (if p then a else b) (if p then a' else b') := by
  split
  · exact ha ‹_›
  · exact hb ‹_›

theorem Fits.fails {P : α → Prop} {d d' : Dec R ε α} (h : ∀ r v r', d r ≠ (.ok v, r'))
    (h' : ∀ r v r', d' r ≠ (.ok v, r')) : Fits P d d' :=
  fun r v r' => ⟨fun e => absurd e (h' r v r'), fun e => absurd e.1 (h r v r')⟩

theorem withTake_ok_iff {n : Nat} {d : Dec (Take R) ε α} {r : R} {v : α} {l : Nat} {r' : R} :
    (Dec.withTake n d : Dec R ε (α × Nat)) r = (.ok (v, l), r') ↔ d ⟨n, r⟩ = (.ok v, ⟨l, r'⟩) := by
  simp only [Dec.withTake]
  generalize d ⟨n, r⟩ = o
  obtain ⟨res, t⟩ := o
  obtain ⟨l', r1⟩ := t
  cases res <;> simp [and_assoc]

theorem Fits.withTake {P : α → Prop} {n : Nat} {d d' : Dec (Take R) ε α} (h : Fits P d d') :
    Fits (fun x => P x.1) (Dec.withTake n d : Dec R ε _) (Dec.withTake n d') := by
  rintro r ⟨v, l⟩ r'
  rw [withTake_ok_iff, withTake_ok_iff]
  exact h _ _ _

/-! ### Sequences of instructions -/

/-- What one call of the parser can return with room for `d` calls. -/
def Room (d : Nat) : ParseResult → Prop
  | .Instruction i => depthInstr i < d
  | _ => 0 < d

theorem depthInstrs_append : ∀ (is js : List Instr), depthInstrs (is ++ js) = max (depthInstrs is) (depthInstrs js)
  | [], js => by simp [depthInstrs]
  | i :: is, js => by simp [depthInstrs, depthInstrs_append is js, Nat.max_assoc]

theorem depthInstrs_snoc {is : List Instr} {i : Instr} :
    depthInstrs (is ++ [i]) = max (depthInstrs is) (depthInstr i) := by
  rw [depthInstrs_append]
  simp [depthInstrs]

theorem seq_grows {p : Dec R ParseError ParseResult} : ∀ n b acc r w r',
    parseSeq p n b acc r = (.ok w, r') → depthInstrs acc ≤ depthInstrs w.1
  | 0, _, _, _, _, _, h => by cases h
  | n + 1, b, acc, r, w, r', h => by
    rw [parseSeq] at h
    obtain ⟨v, r1, _, h2⟩ := bind_ok_iff.1 h
    cases v with
    | Instruction i =>
      have := seq_grows n b _ _ _ _ h2
      rw [depthInstrs_snoc] at this
      omega
    | End => obtain ⟨rfl, _⟩ := pure_ok_iff.1 h2; exact Nat.le_refl _
    | Else =>
      simp only at h2
      split at h2
      · obtain ⟨rfl, _⟩ := pure_ok_iff.1 h2; exact Nat.le_refl _
      · cases h2

theorem Fits.seq {d : Nat} {p p' : Dec R ParseError ParseResult} (h : Fits (Room d) p p') :
    ∀ n b acc, depthInstrs acc < d ∨ acc = [] → Fits (fun x => depthInstrs x.1 < d) (parseSeq p n b acc) (parseSeq p' n b acc)
  | 0, _, _, _ => Fits.fails (fun _ _ _ h => by cases h) fun _ _ _ h => by cases h
  | n + 1, b, acc, ha => by
    rw [parseSeq, parseSeq]
    refine Fits.bind h (fun v hv => ?_) fun v r w r' e hw => ?_
    · cases v with
      | Instruction i =>
        have hi : depthInstr i < d := hv
        refine Fits.seq h n b _ (.inl ?_)
        rw [depthInstrs_snoc]
        rcases ha with ha | rfl
        · omega
        · simp [depthInstrs]; omega
      | End =>
        have hd : 0 < d := hv
        refine Fits.same fun r w r' e => ?_
        obtain ⟨rfl, _⟩ := pure_ok_iff.1 e
        rcases ha with ha | rfl
        · exact ha
        · simpa [depthInstrs] using hd
      | Else =>
        have hd : 0 < d := hv
        refine Fits.same fun r w r' e => ?_
        simp only at e
        split at e
        · obtain ⟨rfl, _⟩ := pure_ok_iff.1 e
          rcases ha with ha | rfl
          · exact ha
          · simpa [depthInstrs] using hd
        · cases e
    · cases v with
      | Instruction i =>
        have := seq_grows n b _ _ _ _ e
        rw [depthInstrs_snoc] at this
        show depthInstr i < d
        omega
      | _ => show 0 < d; omega

theorem Fits.loop {d : Nat} {p p' : Dec R ParseError ParseResult} (h : Fits (Room d) p p') :
    ∀ n acc c, depthInstrs acc < d ∨ acc = [] →
      Fits (fun x => depthInstrs x.1 < d) (decodeExprLoop p n acc c) (decodeExprLoopWithin d p' n acc c)
  | 0, _, _, _ => Fits.fails (fun _ _ _ h => by cases h) fun _ _ _ h => by cases h
  | n + 1, acc, c, ha => by
    rw [decodeExprLoop, decodeExprLoopWithin]
    refine Fits.bind h.mapErr (fun v hv => ?_) fun v r w r' e hw => ?_
    · cases v with
      | Instruction i =>
        have hi : depthInstr i < d := hv
        simp only [contains_within d i hi]
        refine Fits.loop h n _ _ (.inl ?_)
        rw [depthInstrs_snoc]
        rcases ha with ha | rfl
        · omega
        · simp [depthInstrs]; omega
      | End =>
        have hd : 0 < d := hv
        refine Fits.same fun r w r' e => ?_
        obtain ⟨rfl, _⟩ := pure_ok_iff.1 e
        rcases ha with ha | rfl
        · exact ha
        · simpa [depthInstrs] using hd
      | Else => exact Fits.same fun r w r' e => by cases e
    · cases v with
      | Instruction i =>
        have := loop_grows n _ _ _ _ _ e
        rw [depthInstrs_snoc] at this
        show depthInstr i < d
        omega
      | _ => show 0 < d; omega
where
  loop_grows {p : Dec R ParseError ParseResult} : ∀ n acc c r w r',
      decodeExprLoop p n acc c r = (.ok w, r') → depthInstrs acc ≤ depthInstrs w.1
    | 0, _, _, _, _, _, h => by cases h
    | n + 1, acc, c, r, w, r', h => by
      rw [decodeExprLoop] at h
      obtain ⟨v, r1, _, h2⟩ := bind_ok_iff.1 h
      cases v with
      | Instruction i =>
        have := loop_grows n _ _ _ _ _ h2
        rw [depthInstrs_snoc] at this
        omega
      | End => obtain ⟨rfl, _⟩ := pure_ok_iff.1 h2; exact Nat.le_refl _
      | Else => cases h2

/-! ### Lists -/

theorem listLoop_grows {σ : Type} {f : σ → Dec R ε (α × σ)} : ∀ n i st items r w r',
    decodeListLoop f n i st items r = (.ok w, r') → ∀ x ∈ items, x ∈ w.1
  | 0, _, _, _, _, _, _, h => by
    obtain ⟨rfl, _⟩ := pure_ok_iff.1 h
    exact fun x hx => hx
  | n + 1, i, st, items, r, w, r', h => by
    rw [decodeListLoop] at h
    obtain ⟨⟨v, st'⟩, r1, _, h2⟩ := bind_ok_iff.1 h
    intro x hx
    exact listLoop_grows n _ _ _ _ _ _ h2 x (List.mem_append_left _ hx)

theorem Fits.listLoop {σ : Type} {P : α → Prop} {f f' : σ → Dec R ε (α × σ)} (hs : ∀ st, Fits (fun x => P x.1) (f st) (f' st)) :
    ∀ n i st items, (∀ x ∈ items, P x) →
      Fits (fun x => ∀ y ∈ x.1, P y) (decodeListLoop f n i st items) (decodeListLoop f' n i st items)
  | 0, _, _, items, hi => Fits.same fun r w r' e => by
    obtain ⟨rfl, _⟩ := pure_ok_iff.1 e
    exact hi
  | n + 1, i, st, items, hi => by
    rw [decodeListLoop, decodeListLoop]
    refine Fits.bind (hs st).mapErr (fun ⟨v, st'⟩ hv => ?_) fun ⟨v, st'⟩ r w r' e hw => ?_
    · refine Fits.listLoop hs n _ _ _ fun x hx => ?_
      rcases List.mem_append.1 hx with hx | hx
      · exact hi x hx
      · cases List.mem_singleton.1 hx; exact hv
    · exact hw v (listLoop_grows _ _ _ _ _ _ _ e v (by simp))

theorem Fits.list {P : α → Prop} {f f' : Dec R ε α} (hs : Fits P f f') :
    Fits (fun l => ∀ x ∈ l, P x) (decodeList f) (decodeList f') := by
  unfold decodeList
  refine Fits.last (P := fun x => ∀ y ∈ x.1, P y) ?_ fun ⟨v, _⟩ r w r' e => ?_
  · unfold decodeListS
    refine Fits.step fun n => Fits.step fun _ => Fits.listLoop (fun _ => ?_) _ _ _ _ (by simp)
    exact Fits.last hs fun v r w r' e => by obtain ⟨rfl, _⟩ := pure_ok_iff.1 e; exact Iff.rfl
  · obtain ⟨rfl, _⟩ := pure_ok_iff.1 e
    exact Iff.rfl

/-! ### Expressions -/

theorem parse_fits {R : Type} [LawfulRead R] : ∀ n d, Fits (R := R) (Room d) (parse n) (parseWithin d n)
  | n, 0 => by
    rw [parseWithin]
    refine fun r v r' => Iff.intro (fun h => by cases h) fun h => ?_
    have h2 := h.2
    cases v with
    | Instruction i => exact absurd h2 (Nat.not_lt_zero _)
    | _ => exact absurd h2 (Nat.lt_irrefl _)
  | 0, d + 1 => Fits.fails (fun _ _ _ h => by cases h) fun _ _ _ h => by cases h
  | n + 1, d + 1 => by
    have ih := parse_fits (R := R) n d
    rw [parse, parseWithin]
    refine Fits.step fun v => ?_
    match v with
    | [] => exact Fits.fails (fun _ _ _ h => by cases h) fun _ _ _ h => by cases h
    | _ :: _ :: _ => exact Fits.fails (fun _ _ _ h => by cases h) fun _ _ _ h => by cases h
    | [op] =>
      refine Fits.ite (fun _ => ?_) fun _ => Fits.ite (fun _ => ?_) fun _ => Fits.ite (fun _ => ?_) fun _ =>
        Fits.ite (fun _ => ?_) fun _ => ?_
      · exact Fits.same fun r w r' e => by obtain ⟨rfl, _⟩ := pure_ok_iff.1 e; exact Nat.succ_pos _
      · exact Fits.same fun r w r' e => by obtain ⟨rfl, _⟩ := pure_ok_iff.1 e; exact Nat.succ_pos _
      · refine Fits.step fun bt => Fits.bind (ih.seq _ _ _ (.inr rfl)) (fun ⟨in1, parsed⟩ hv => ?_)
          fun ⟨in1, parsed⟩ r w r' e hw => ?_
        · simp only at hv
          refine Fits.ite (fun _ => ?_) fun _ => Fits.ite (fun _ => ?_) fun _ => Fits.ite (fun _ => ?_) fun _ => ?_
          · refine Fits.same fun r w r' e => ?_
            obtain ⟨rfl, _⟩ := pure_ok_iff.1 e
            simp only [Room, depthInstr]; omega
          · refine Fits.same fun r w r' e => ?_
            obtain ⟨rfl, _⟩ := pure_ok_iff.1 e
            simp only [Room, depthInstr]; omega
          · cases parsed with
            | Instruction i => exact Fits.fails (fun _ _ _ h => by cases h) fun _ _ _ h => by cases h
            | End =>
              refine Fits.same fun r w r' e => ?_
              obtain ⟨rfl, _⟩ := pure_ok_iff.1 e
              simp only [Room, depthInstr, depthOpt]; omega
            | Else =>
              refine Fits.last (ih.seq _ _ _ (.inr rfl)) fun ⟨in2, _⟩ r w r' e => ?_
              obtain ⟨rfl, _⟩ := pure_ok_iff.1 e
              simp only [Room, depthInstr, depthOpt]; omega
          · exact Fits.fails (fun _ _ _ h => by cases h) fun _ _ _ h => by cases h
        · simp only at e ⊢
          split at e
          · obtain ⟨rfl, _⟩ := pure_ok_iff.1 e
            simp only [Room, depthInstr] at hw; omega
          · split at e
            · obtain ⟨rfl, _⟩ := pure_ok_iff.1 e
              simp only [Room, depthInstr] at hw; omega
            · split at e
              · cases parsed with
                | Instruction i => cases e
                | End =>
                  obtain ⟨rfl, _⟩ := pure_ok_iff.1 e
                  simp only [Room, depthInstr, depthOpt] at hw; omega
                | Else =>
                  obtain ⟨⟨in2, _⟩, r1, _, e⟩ := bind_ok_iff.1 e
                  obtain ⟨rfl, _⟩ := pure_ok_iff.1 e
                  simp only [Room, depthInstr, depthOpt] at hw; omega
              · cases e
      · refine Fits.step fun bt => Fits.step fun c => Fits.last (ih.seq _ _ _ (.inr rfl)) fun ⟨is, _⟩ r w r' e => ?_
        obtain ⟨rfl, _⟩ := pure_ok_iff.1 e
        simp only [Room, depthInstr]; omega
      · refine Fits.same fun r w r' e => ?_
        obtain ⟨i, r1, e1, e⟩ := bind_ok_iff.1 e
        obtain ⟨rfl, _⟩ := pure_ok_iff.1 e
        obtain ⟨bs, _, op', imms, _, _, _, hl⟩ := parseSimple_sound op r i r1 e1
        show depthInstr i < d + 1
        rw [depth_leaf hl]
        exact Nat.succ_pos _

end

section
variable {R : Type} [LawfulRead R] {d : Nat}

theorem expr_fits : Fits (R := R) (fun x => depthInstrs x.1 < d) decodeExpr (decodeExprWithin d) :=
  fun r => (parse_fits _ d).loop _ _ _ (.inr rfl) r

theorem expr'_fits : Fits (R := R) (fun e => depthInstrs e < d) decodeExpr' (decodeExprWithin' d) :=
  Fits.last expr_fits fun ⟨e, _⟩ r w r' h => by
    obtain ⟨rfl, _⟩ := pure_ok_iff.1 h
    exact Iff.rfl

/-! ### Sections -/

/-- The expressions of an element segment. -/
def ElemFits (d : Nat) (e : Elem) : Prop :=
  (∀ x ∈ e.init, depthInstrs x < d) ∧ ∀ x o, e.mode = .Active x o → depthInstrs o < d

def DataFits (d : Nat) (x : Data) : Prop := ∀ y o, x.mode = .Active y o → depthInstrs o < d

theorem codeBody_fits : Fits (R := R) (fun x => depthInstrs x.2.1 < d) parseCodeBody (parseCodeBodyWithin d) := by
  refine Fits.step fun _ => Fits.last (Fits.mapErr expr_fits) fun ⟨e, _⟩ r w r' h => ?_
  obtain ⟨rfl, _⟩ := pure_ok_iff.1 h
  exact Iff.rfl

theorem code_fits : Fits (R := R) (fun c => depthInstrs c.expr < d) parseCode (parseCodeWithin d) := by
  refine Fits.step fun _ => Fits.last (Fits.withTake codeBody_fits) fun ⟨⟨_, e, _⟩, _⟩ r w r' h => ?_
  simp only at h
  split at h
  · cases h
  · obtain ⟨rfl, _⟩ := pure_ok_iff.1 h
    exact Iff.rfl

theorem data_fits : Fits (R := R) (DataFits d) parseData (parseDataWithin d) := by
  refine Fits.step fun _ => Fits.ite (fun _ => ?_) fun _ => Fits.ite (fun _ => ?_) fun _ => Fits.ite (fun _ => ?_) fun _ => ?_
  · refine Fits.last (Fits.mapErr expr'_fits) fun e r w r' h => ?_
    obtain ⟨i, r1, _, h⟩ := bind_ok_iff.1 h
    obtain ⟨rfl, _⟩ := pure_ok_iff.1 h
    simp [DataFits]
  · refine Fits.same fun r w r' h => ?_
    obtain ⟨i, r1, _, h⟩ := bind_ok_iff.1 h
    obtain ⟨rfl, _⟩ := pure_ok_iff.1 h
    simp [DataFits]
  · refine Fits.step fun _ => Fits.last (Fits.mapErr expr'_fits) fun e r w r' h => ?_
    obtain ⟨i, r1, _, h⟩ := bind_ok_iff.1 h
    obtain ⟨rfl, _⟩ := pure_ok_iff.1 h
    simp [DataFits]
  · exact Fits.fails (fun _ _ _ h => by cases h) fun _ _ _ h => by cases h

theorem elemExprs_fits : Fits (R := R) (fun l => ∀ x ∈ l, depthInstrs x < d) elemExprs (elemExprsWithin d) :=
  Fits.mapErr (Fits.list expr'_fits)

theorem funcs_fit (hd : 0 < d) (ys : List FuncIdx) : ∀ x ∈ funcidxIntoReffunc ys, depthInstrs x < d := by
  intro x hx
  simp only [funcidxIntoReffunc, List.mem_map] at hx
  obtain ⟨y, _, rfl⟩ := hx
  simpa [depthInstrs, depthInstr] using hd

theorem elem_fits (hd : 0 < d) : Fits (R := R) (ElemFits d) parseElem (parseElemWithin d) := by
  refine Fits.step fun _ => Fits.ite (fun _ => ?_) fun _ => Fits.ite (fun _ => ?_) fun _ => Fits.ite (fun _ => ?_) fun _ =>
    Fits.ite (fun _ => ?_) fun _ => Fits.ite (fun _ => ?_) fun _ => Fits.ite (fun _ => ?_) fun _ => Fits.ite (fun _ => ?_) fun _ =>
    Fits.ite (fun _ => ?_) fun _ => ?_
  · refine Fits.last (Fits.mapErr expr'_fits) fun e r w r' h => ?_
    obtain ⟨y, r1, _, h⟩ := bind_ok_iff.1 h
    obtain ⟨rfl, _⟩ := pure_ok_iff.1 h
    have := funcs_fit hd y
    simpa [ElemFits] using fun _ => this
  · refine Fits.same fun r w r' h => ?_
    obtain ⟨rt, r1, _, h⟩ := bind_ok_iff.1 h
    obtain ⟨y, r1, _, h⟩ := bind_ok_iff.1 h
    obtain ⟨rfl, _⟩ := pure_ok_iff.1 h
    have := funcs_fit hd y
    simpa [ElemFits] using this
  · refine Fits.step fun _ => Fits.last (Fits.mapErr expr'_fits) fun e r w r' h => ?_
    obtain ⟨rt, r1, _, h⟩ := bind_ok_iff.1 h
    obtain ⟨y, r1, _, h⟩ := bind_ok_iff.1 h
    obtain ⟨rfl, _⟩ := pure_ok_iff.1 h
    have := funcs_fit hd y
    simpa [ElemFits] using fun _ => this
  · refine Fits.same fun r w r' h => ?_
    obtain ⟨rt, r1, _, h⟩ := bind_ok_iff.1 h
    obtain ⟨y, r1, _, h⟩ := bind_ok_iff.1 h
    obtain ⟨rfl, _⟩ := pure_ok_iff.1 h
    have := funcs_fit hd y
    simpa [ElemFits] using this
  · refine Fits.bind (Fits.mapErr expr'_fits) (fun e he => Fits.last elemExprs_fits fun l r w r' h => ?_)
      fun e r w r' h hw => ?_
    · obtain ⟨rfl, _⟩ := pure_ok_iff.1 h
      simpa [ElemFits] using fun _ => he
    · obtain ⟨y, r1, _, h⟩ := bind_ok_iff.1 h
      obtain ⟨rfl, _⟩ := pure_ok_iff.1 h
      exact hw.2 _ _ rfl
  · refine Fits.step fun _ => Fits.last elemExprs_fits fun l r w r' h => ?_
    obtain ⟨rfl, _⟩ := pure_ok_iff.1 h
    simp [ElemFits]
  · refine Fits.step fun _ => Fits.bind (Fits.mapErr expr'_fits)
      (fun e he => Fits.step fun _ => Fits.last elemExprs_fits fun l r w r' h => ?_) fun e r w r' h hw => ?_
    · obtain ⟨rfl, _⟩ := pure_ok_iff.1 h
      simpa [ElemFits] using fun _ => he
    · obtain ⟨rt, r1, _, h⟩ := bind_ok_iff.1 h
      obtain ⟨y, r1, _, h⟩ := bind_ok_iff.1 h
      obtain ⟨rfl, _⟩ := pure_ok_iff.1 h
      exact hw.2 _ _ rfl
  · refine Fits.step fun _ => Fits.last elemExprs_fits fun l r w r' h => ?_
    obtain ⟨rfl, _⟩ := pure_ok_iff.1 h
    simp [ElemFits]
  · exact Fits.fails (fun _ _ _ h => by cases h) fun _ _ _ h => by cases h

theorem global_fits : Fits (R := R) (fun g => depthInstrs g.init < d) parseGlobal (parseGlobalWithin d) := by
  refine Fits.step fun _ => Fits.last (Fits.mapErr expr'_fits) fun e r w r' h => ?_
  obtain ⟨rfl, _⟩ := pure_ok_iff.1 h
  exact Iff.rfl

theorem table_fits (hd : 0 < d) : Fits (R := R) (fun t => depthInstrs t.init < d) decodeTable (decodeTableWithin d) := by
  refine Fits.step fun _ => Fits.ite (fun _ => ?_) fun _ => ?_
  · refine Fits.step fun _ => Fits.ite (fun _ => ?_) fun _ => ?_
    · exact Fits.fails (fun _ _ _ h => by cases h) fun _ _ _ h => by cases h
    · refine Fits.step fun _ => Fits.last (Fits.mapErr expr'_fits) fun e r w r' h => ?_
      obtain ⟨rfl, _⟩ := pure_ok_iff.1 h
      exact Iff.rfl
  · refine Fits.same fun r w r' h => ?_
    obtain ⟨tt, r1, _, h⟩ := bind_ok_iff.1 h
    obtain ⟨rfl, _⟩ := pure_ok_iff.1 h
    simpa [depthInstrs, depthInstr] using hd

theorem deepest_lt (hd : 0 < d) {l : List Expr} : deepest l < d ↔ ∀ e ∈ l, depthInstrs e < d := by
  induction l with
  | nil => simpa [deepest] using hd
  | cons x xs ih =>
    have h : deepest (x :: xs) = max (depthInstrs x) (deepest xs) := rfl
    rw [h, Nat.max_lt, ih, List.forall_mem_cons]

theorem depthModule_lt (hd : 0 < d) {m : Module} : depthModule m < d ↔ (∀ f ∈ m.funcs, depthInstrs f.body < d) ∧
    (∀ g ∈ m.globals, depthInstrs g.init < d) ∧ (∀ t ∈ m.tables, depthInstrs t.init < d) ∧
    (∀ e ∈ m.elems, ElemFits d e) ∧ ∀ x ∈ m.datas, DataFits d x := by
  simp only [depthModule, Nat.max_lt, deepest_lt hd, List.mem_map, List.mem_flatMap, List.mem_append]
  refine and_congr ?_ (and_congr ?_ (and_congr ?_ (and_congr ?_ ?_)))
  · exact ⟨fun h f hf => h _ ⟨f, hf, rfl⟩, fun h e ⟨f, hf, he⟩ => he ▸ h f hf⟩
  · exact ⟨fun h f hf => h _ ⟨f, hf, rfl⟩, fun h e ⟨f, hf, he⟩ => he ▸ h f hf⟩
  · exact ⟨fun h f hf => h _ ⟨f, hf, rfl⟩, fun h e ⟨f, hf, he⟩ => he ▸ h f hf⟩
  · refine ⟨fun h e he => ⟨fun x hx => h x ⟨e, he, .inl hx⟩, fun x o ho => h o ⟨e, he, .inr ?_⟩⟩, fun h x ⟨e, he, hx⟩ => ?_⟩
    · rw [ho]; simp
    · rcases hx with hx | hx
      · exact (h e he).1 x hx
      · cases hm : e.mode with
        | Active y o =>
          rw [hm] at hx
          cases List.mem_singleton.1 hx
          exact (h e he).2 _ _ hm
        | _ => rw [hm] at hx; cases hx
  · refine ⟨fun h e he x o ho => h o ⟨e, he, ?_⟩, fun h x ⟨e, he, hx⟩ => ?_⟩
    · rw [ho]; simp
    · cases hm : e.mode with
      | Active y o =>
        rw [hm] at hx
        cases List.mem_singleton.1 hx
        exact h e he _ _ hm
      | _ => rw [hm] at hx; cases hx

theorem filled {codes : List Code} {fs : List Func} (hl : codes.length = fs.length) :
    (∀ f ∈ List.zipWith fill fs (codes.map Code.toEntry), depthInstrs f.body < d) ↔ ∀ c ∈ codes, depthInstrs c.expr < d := by
  induction codes generalizing fs with
  | nil => simp
  | cons c cs ih =>
    cases fs with
    | nil => simp at hl
    | cons f fs =>
      simp only [List.map_cons, List.zipWith_cons_cons, List.forall_mem_cons, ih (Nat.succ.inj hl)]
      exact Iff.rfl

theorem sectionBody_fits {k : SectionKind} {st : LoopState} (h : depthModule st.module < d) :
    Fits (R := R) (fun st' => depthModule st'.module < d) (decodeSectionBody k st) (decodeSectionBodyWithin d k st) := by
  have hd : 0 < d := Nat.lt_of_le_of_lt (Nat.zero_le _) h
  have hm := (depthModule_lt hd).1 h
  cases k with
  | Table =>
    refine Fits.last (Fits.mapErr (Fits.mapErr (Fits.list (table_fits hd)))) fun l r w r' e => ?_
    obtain ⟨rfl, _⟩ := pure_ok_iff.1 e
    rw [depthModule_lt hd]
    exact ⟨fun h => h.2.2.1, fun h => ⟨hm.1, hm.2.1, h, hm.2.2.2⟩⟩
  | Global =>
    refine Fits.last (Fits.mapErr (Fits.mapErr (Fits.list global_fits))) fun l r w r' e => ?_
    obtain ⟨rfl, _⟩ := pure_ok_iff.1 e
    rw [depthModule_lt hd]
    exact ⟨fun h => h.2.1, fun h => ⟨hm.1, h, hm.2.2⟩⟩
  | Element =>
    refine Fits.last (Fits.mapErr (Fits.mapErr (Fits.list (elem_fits hd)))) fun l r w r' e => ?_
    obtain ⟨rfl, _⟩ := pure_ok_iff.1 e
    rw [depthModule_lt hd]
    exact ⟨fun h => h.2.2.2.1, fun h => ⟨hm.1, hm.2.1, hm.2.2.1, h, hm.2.2.2.2⟩⟩
  | Code =>
    refine Fits.last (Fits.mapErr (Fits.mapErr (Fits.list code_fits))) fun l r w r' e => ?_
    simp only at e
    split at e
    · cases e
    · rename_i hl
      simp only [Decidable.not_not] at hl
      obtain ⟨⟨fs, b⟩, r1, e1, e⟩ := bind_ok_iff.1 e
      have hf := fillFuncs_eq (R := R) l [] st.module.funcs st.encountered_data_idx_in_code_section hl
      rw [List.nil_append, List.length_nil] at hf
      rw [hf] at e1
      obtain ⟨e1, _⟩ := pure_ok_iff.1 e1
      obtain ⟨rfl, _⟩ := pure_ok_iff.1 e
      cases e1
      rw [depthModule_lt hd, List.nil_append]
      exact ⟨fun h => (filled hl).1 h.1, fun h => ⟨(filled hl).2 h, hm.2⟩⟩
  | Data =>
    refine Fits.last (Fits.mapErr (Fits.mapErr (Fits.list data_fits))) fun l r w r' e => ?_
    have key : ∀ c, { st with module := { st.module with data_count := c, datas := l } } = w → (depthModule w.module < d ↔ ∀ x ∈ l, DataFits d x) := by
      rintro c rfl
      rw [depthModule_lt hd]
      exact ⟨fun h => h.2.2.2.2, fun h => ⟨hm.1, hm.2.1, hm.2.2.1, hm.2.2.2.1, h⟩⟩
    generalize st.module.data_count = c at e
    cases c with
    | none => exact key _ (pure_ok_iff.1 e).1
    | some c =>
      simp only at e
      split at e
      · cases e
      · exact key _ (pure_ok_iff.1 e).1
  | Function =>
    refine Fits.same fun r w r' e => ?_
    obtain ⟨l, r1, _, e⟩ := bind_ok_iff.1 e
    obtain ⟨rfl, _⟩ := pure_ok_iff.1 e
    refine (depthModule_lt hd).2 ⟨fun f hf => ?_, hm.2⟩
    rcases List.mem_append.1 hf with hf | hf
    · exact hm.1 f hf
    · obtain ⟨x, _, rfl⟩ := List.mem_map.1 hf
      simpa [depthInstrs] using hd
  | _ =>
    refine Fits.same fun r w r' e => ?_
    obtain ⟨l, r1, _, e⟩ := bind_ok_iff.1 e
    obtain ⟨rfl, _⟩ := pure_ok_iff.1 e
    exact h

theorem section_fits {h : SectionHeader} {st : LoopState} (hst : depthModule st.module < d) :
    Fits (R := R) (fun st' => depthModule st'.module < d) (decodeSection h st) (decodeSectionWithin d h st) := by
  refine Fits.step fun _ => Fits.last (Fits.withTake (sectionBody_fits hst)) fun ⟨st', l⟩ r w r' e => ?_
  simp only at e
  split at e
  · cases e
  · obtain ⟨rfl, _⟩ := pure_ok_iff.1 e
    exact Iff.rfl

/-! ### Modules -/

theorem depth_state_le {pre secs : List (UInt32 × Section)} (ha : Acceptable (pre.map Prod.snd))
    (h : depthModule (stateOf (pre ++ secs)).module < d) : depthModule (stateOf pre).module < d := by
  have hd : 0 < d := Nat.lt_of_le_of_lt (Nat.zero_le _) h
  have hm := (depthModule_lt hd).1 h
  rw [depthModule_lt hd]
  have hsub : ∀ {α : Type} {g : Section → List α} {x : α}, x ∈ (pre.map Prod.snd).flatMap g →
      x ∈ ((pre ++ secs).map Prod.snd).flatMap g := by
    intro α g x hx
    rw [List.map_append, List.flatMap_append]
    exact List.mem_append_left _ hx
  refine ⟨?_, fun g hg => hm.2.1 g (hsub hg), fun g hg => hm.2.2.1 g (hsub hg), fun g hg => hm.2.2.2.1 g (hsub hg),
    fun g hg => hm.2.2.2.2 g (hsub hg)⟩
  intro f hf
  simp only [stateOf] at hf hm
  cases hc : hasCode (pre.map Prod.snd) with
  | false =>
    rw [hc, cond_false] at hf
    obtain ⟨x, _, rfl⟩ := List.mem_map.1 hf
    simpa [depthInstrs] using hd
  | true =>
    rw [hc, cond_true] at hf
    have hc2 : hasCode ((pre ++ secs).map Prod.snd) = true := by
      rw [List.map_append]
      simp only [hasCode, List.any_append] at hc ⊢
      rw [hc]
      rfl
    rw [hc2, cond_true] at hm
    have hlen := ha.funcs (by simpa only [hasCode, List.any_eq_true, decide_eq_true_eq] using hc)
    refine hm.1 f ?_
    have e1 : typeIdxsOf ((pre ++ secs).map Prod.snd) = typeIdxsOf (pre.map Prod.snd) ++ typeIdxsOf (secs.map Prod.snd) := by
      simp [typeIdxsOf]
    have e2 : codesOf ((pre ++ secs).map Prod.snd) = codesOf (pre.map Prod.snd) ++ codesOf (secs.map Prod.snd) := by
      simp [codesOf]
    rw [e1, e2, List.zipWith_append hlen]
    exact List.mem_append_left _ hf

theorem loop_fits : ∀ (n : Nat) (pre : List (UInt32 × Section)), Acceptable (pre.map Prod.snd) →
    depthModule (stateOf pre).module < d →
    Fits (R := R) (fun st' => depthModule st'.module < d) (sectionLoop n (stateOf pre)) (sectionLoopWithin d n (stateOf pre))
  | 0, _, _, _ => Fits.fails (fun _ _ _ h => by cases h) fun _ _ _ h => by cases h
  | n + 1, pre, hp, hd => by
    rw [sectionLoop, sectionLoopWithin]
    refine Fits.step fun h => ?_
    cases h with
    | none =>
      refine Fits.same fun r w r' e => ?_
      obtain ⟨rfl, _⟩ := pure_ok_iff.1 e
      exact hd
    | some h =>
      intro r w r'
      simp only [bind_ok_iff]
      constructor
      · rintro ⟨st, r1, h1, h2⟩
        obtain ⟨h1, hst⟩ := (section_fits hd _ _ _).1 h1
        obtain ⟨_, _, s, _, _, _, hacc, rfl⟩ := section_sound hp r _ _ h1
        obtain ⟨h2, hw⟩ := (loop_fits n _ (by simpa using hacc) hst _ _ _).1 h2
        exact ⟨⟨_, r1, h1, h2⟩, hw⟩
      · rintro ⟨⟨st, r1, h1, h2⟩, hw⟩
        obtain ⟨_, _, s, _, _, _, hacc, rfl⟩ := section_sound hp r _ _ h1
        have ha : Acceptable ((pre ++ [(h.size, s)]).map Prod.snd) := by simpa using hacc
        obtain ⟨secs, _, _, hw2, _⟩ := loop_sound n _ _ _ _ h2 ha
        have hst : depthModule (stateOf (pre ++ [(h.size, s)])).module < d := depth_state_le ha (hw2 ▸ hw)
        exact ⟨_, r1, (section_fits hd _ _ _).2 ⟨h1, hst⟩, (loop_fits n _ ha hst _ _ _).2 ⟨h2, hw⟩⟩

theorem module_fits (hd : 0 < d) : Fits (R := R) (fun m => depthModule m < d) decodeModule (decodeModuleWithin d) := by
  intro r
  simp only [decodeModule, decodeModuleWithin]
  refine Fits.step (fun _ => ?_) r
  refine Fits.last (loop_fits _ [] Acceptable.nil ?_) fun st r w r' e => ?_
  · exact hd
  · unfold finalChecks at e
    split at e
    · cases e
    · split at e
      · cases e
      · split at e
        · cases e
        · obtain ⟨rfl, _⟩ := pure_ok_iff.1 e
          exact Iff.rfl

end

end Wadec
