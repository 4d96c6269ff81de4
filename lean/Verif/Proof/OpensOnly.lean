import Verif.Proof.Opens

/-! C72: and no other inputs need more. -/

namespace Wadec

open LawfulRead Spec

variable {R : Type} [LawfulRead R] {ε ε' α β : Type} {L : Nat} {T : Bytes → Prop}

/-- With at most `L` bytes to read, `d` runs out of stack only on inputs with `T`. -/
def StuckBy (L : Nat) (T : Bytes → Prop) (d : Dec R ε α) : Prop := ∀ r, (avail r).length ≤ L → (d r).1 = .fuel → T (avail r)

theorem StuckBy.pure {v : α} : StuckBy (R := R) (ε := ε) L T (Pure.pure v) := fun _ _ h => by cases h
theorem StuckBy.err {e : ε} : StuckBy (R := R) (α := α) L T (Dec.err e) := fun _ _ h => by cases h
theorem StuckBy.panic : StuckBy (R := R) (ε := ε) (α := α) L T Dec.panic := fun _ _ h => by cases h

theorem StuckBy.ite {c : Prop} [Decidable c] {a b : Dec R ε α} (ha : c → StuckBy L T a) (hb : ¬c → StuckBy L T b) :
    StuckBy L T (if c then a else b) := by
  split
  · exact ha ‹_›
  · exact hb ‹_›

theorem StuckBy.mapErr {d : Dec R ε α} {f : ε → ε'} (h : StuckBy L T d) : StuckBy L T (d.mapErr f) := by
  intro r hl hf
  refine h r hl ?_
  simp only [Dec.mapErr] at hf
  generalize d r = o at hf ⊢
  obtain ⟨res, r1⟩ := o
  cases res <;> simp_all

theorem StuckBy.mono {T' : Bytes → Prop} {L' : Nat} {d : Dec R ε α} (h : StuckBy L T d) (hL : L' ≤ L)
    (hT : ∀ x, T x → T' x) : StuckBy L' T' d := fun r hl hf => hT _ (h r (by omega) hf)

/-- In a sequence, either part can be the one that runs out of stack. -/
theorem StuckBy.bind {S : Bytes → α → Prop} {d : Dec R ε α} {f : α → Dec R ε β} (hs : Sound d S) (hd : StuckBy L T d)
    (hf : ∀ v b, S b v → b.length ≤ L → StuckBy (L - b.length) (fun x => T (b ++ x)) (f v)) : StuckBy L T (d >>= f) := by
  intro r hl h
  simp only [Bind.bind, Dec.bind] at h
  have h1 := hs r
  have h2 := hd r hl
  generalize d r = o at h h1 h2
  obtain ⟨res, r1⟩ := o
  cases res with
  | ok v =>
    obtain ⟨b, ha, hb⟩ := h1 v r1 rfl
    have hav := adv_avail ha
    rw [hav] at hl ⊢
    rw [List.length_append] at hl
    exact hf v b hb (by omega) r1 (by omega) h
  | err e => cases h
  | panic => cases h
  | fuel => exact h2 rfl

/-- What never runs out of stack. -/
theorem StuckBy.good [ErrInfo ε] {k : Nat} {d : Dec R ε α} (h : G k L d d) : StuckBy L T d := by
  intro r hl hf
  have := h r r hl (List.prefix_refl _)
  generalize d r = o at this hf
  obtain ⟨res, r1⟩ := o
  cases res with
  | fuel => exact this.elim
  | _ => cases hf

theorem Sound.under {S : Bytes → α → Prop} {d d' : Dec R ε α} (hu : Under d d') (h : Sound d S) : Sound d' S := by
  intro r v r' e
  rcases hu r with h' | h'
  · exact h r v r' (by rw [← h', e])
  · rw [e] at h'; cases h'

/-- What the input leads into: the start of `d` nested constructs. -/
def Leads (d : Nat) (x : Bytes) : Prop := ∃ bs rest, x = bs ++ rest ∧ Opens d bs

/-- The same, the first construct starting right away. -/
def LeadsIn : Nat → Bytes → Prop
  | 0, _ => True
  | d + 1, x => ∃ c o y, Opener c o ∧ x = o ++ y ∧ Leads d y

theorem LeadsIn.leads {d : Nat} {x : Bytes} (h : LeadsIn d x) : Leads d x := by
  cases d with
  | zero => exact ⟨[], x, rfl, .here⟩
  | succ d =>
    obtain ⟨c, o, y, ho, rfl, bs, rest, rfl, hb⟩ := h
    exact ⟨[] ++ (o ++ bs), rest, by simp, .enter .nil ho hb⟩

theorem Leads.cons {d : Nat} {b x : Bytes} {i : Instr} (hi : BInstr b i) (h : Leads d x) : Leads d (b ++ x) := by
  obtain ⟨bs, rest, rfl, hb⟩ := h
  cases hb with
  | here => exact ⟨[], b ++ ([] ++ rest), rfl, .here⟩
  | @enter d pre o bs is c h1 h2 h3 =>
    exact ⟨(b ++ pre) ++ (o ++ bs), rest, by simp, .enter (.cons hi h1) h2 h3⟩

theorem parse_reads (d n : Nat) : Sound (R := R) (parseWithin d n) (fun b v => BParse b v ∧ Room d v) := by
  intro r v r' e
  obtain ⟨h1, h2⟩ := (parse_fits n d r v r').1 e
  obtain ⟨b, ha, hb⟩ := parse_sound n r v r' h1
  exact ⟨b, ha, hb, h2⟩

theorem seq_stuck {d n N : Nat} (hp : ∀ M, M ≤ N → StuckBy (R := R) M (LeadsIn d) (parseWithin d n)) :
    ∀ (m : Nat) (M : Nat) (ae : Bool) (acc : List Instr), M ≤ N → M < m →
      StuckBy (R := R) M (Leads d) (parseSeq (parseWithin d n) m ae acc)
  | 0, _, _, _, _, h => absurd h (by omega)
  | m + 1, M, ae, acc, hM, hm => by
    rw [parseSeq]
    refine StuckBy.bind (parse_reads d n) ((hp M hM).mono (Nat.le_refl _) fun _ => LeadsIn.leads) ?_
    rintro v b ⟨hb, hr⟩ hl
    cases v with
    | Instruction i =>
      have := BInstr.length_pos hb
      exact (seq_stuck hp m (M - b.length) ae _ (by omega) (by omega)).mono (Nat.le_refl _) fun x hx => hx.cons hb
    | End => exact StuckBy.pure
    | Else => exact StuckBy.ite (fun _ => StuckBy.pure) fun _ => StuckBy.err

theorem loop_stuck {d n N : Nat} (hp : ∀ M, M ≤ N → StuckBy (R := R) M (LeadsIn d) (parseWithin d n)) :
    ∀ (m : Nat) (M : Nat) (acc : List Instr) (c : Bool), M ≤ N → M < m →
      StuckBy (R := R) M (Leads d) (decodeExprLoopWithin d (parseWithin d n) m acc c)
  | 0, _, _, _, _, h => absurd h (by omega)
  | m + 1, M, acc, c, hM, hm => by
    rw [decodeExprLoopWithin]
    refine StuckBy.bind (Sound.mapErr (parse_reads d n))
      (((hp M hM).mono (Nat.le_refl _) fun _ => LeadsIn.leads).mapErr) ?_
    rintro v b ⟨hb, hr⟩ hl
    cases v with
    | Instruction i =>
      have := BInstr.length_pos hb
      simp only [contains_within d i hr]
      exact (loop_stuck hp m (M - b.length) _ _ (by omega) (by omega)).mono (Nat.le_refl _) fun x hx => hx.cons hb
    | End => exact StuckBy.pure
    | Else => exact StuckBy.err

theorem parse_stuck : ∀ (n d L : Nat), L < n → StuckBy (R := R) L (LeadsIn d) (parseWithin d n)
  | _, 0, _, _ => fun _ _ _ => trivial
  | 0, _ + 1, _, h => absurd h (by omega)
  | n + 1, d + 1, L, h => by
    have ih : ∀ M, M ≤ L - 1 → L ≠ 0 → StuckBy (R := R) M (LeadsIn d) (parseWithin d n) :=
      fun M hM h0 => parse_stuck n d M (by omega)
    rw [parseWithin]
    refine StuckBy.bind (Sound.mapErr Sound.readExact) (StuckBy.mapErr (StuckBy.good G.readExact)) ?_
    rintro buf b ⟨rfl, hlen⟩ hl
    match b, hlen with
    | [op], _ =>
      simp only [List.length_cons, List.length_nil] at hl
      have ih' := fun M (hM : M ≤ L - 1) => ih M hM (by omega)
      refine StuckBy.ite (fun _ => StuckBy.pure) fun _ => StuckBy.ite (fun _ => StuckBy.pure) fun _ =>
        StuckBy.ite (fun hop => ?_) fun _ => StuckBy.ite (fun hop => ?_) fun _ => ?_
      · refine StuckBy.bind (Sound.mapErr BlockType.sound) (StuckBy.mapErr (StuckBy.good BlockType.g)) ?_
        intro bt b1 h1 hl1
        simp only [List.length_cons, List.length_nil, Nat.zero_add] at hl1 ⊢
        have hop' : op = 0x02 ∨ op = 0x03 ∨ op = 0x04 := by
          have h2 := UInt8.le_iff_toNat_le.1 hop.1
          have h4 := UInt8.le_iff_toNat_le.1 hop.2
          simp only [← UInt8.toNat_inj]
          simp at h2 h4 ⊢
          omega
        refine StuckBy.bind (Sound.under ((parse_under n d).seq _ _ _) (parseSeq_sound (parse_sound n) n (op == 0x04) []))
          ((seq_stuck ih' n _ _ _ (by omega) (by omega)).mono (Nat.le_refl _) ?_) ?_
        · intro x hx
          rcases hop' with rfl | rfl | rfl
          · exact ⟨_, _, x, .block h1, by simp, hx⟩
          · exact ⟨_, _, x, .loop h1, by simp, hx⟩
          · exact ⟨_, _, x, .then h1, by simp, hx⟩
        · rintro ⟨in1, parsed⟩ b2 ⟨is, b3, h2, h3, h4⟩ hl2
          refine StuckBy.ite (fun _ => StuckBy.pure) fun _ => StuckBy.ite (fun _ => StuckBy.pure) fun _ =>
            StuckBy.ite (fun hop4 => ?_) fun _ => StuckBy.panic
          subst hop4
          rcases h4 with ⟨h4, rfl⟩ | ⟨h4, _, rfl⟩
          · simp only at h4; subst h4; exact StuckBy.pure
          · simp only at h4
            subst h4
            refine StuckBy.bind (S := fun _ _ => True) ?_ ((seq_stuck ih' n _ _ _ (by omega) (by omega)).mono (Nat.le_refl _) ?_)
              fun _ _ _ _ => StuckBy.pure
            · exact Sound.mono (Sound.under ((parse_under n d).seq _ _ _) (parseSeq_sound (parse_sound n) n false []))
                fun _ _ _ => trivial
            · intro x hx
              exact ⟨_, _, x, .else h1 h3, by simp, hx⟩
      · subst hop
        refine StuckBy.bind (Sound.mapErr BlockType.sound) (StuckBy.mapErr (StuckBy.good BlockType.g)) ?_
        intro bt b1 h1 hl1
        refine StuckBy.bind (Sound.mapErr (list_sound Catch.sound))
          (StuckBy.mapErr (StuckBy.good (list_g fun _ _ => Catch.g.mono (by omega)))) ?_
        intro cs b2 h2 hl2
        simp only [List.length_cons, List.length_nil, Nat.zero_add] at hl1 hl2 ⊢
        refine StuckBy.bind (S := fun _ _ => True) ?_ ((seq_stuck ih' n _ _ _ (by omega) (by omega)).mono (Nat.le_refl _) ?_)
          fun _ _ _ _ => StuckBy.pure
        · exact Sound.mono (Sound.under ((parse_under n d).seq _ _ _) (parseSeq_sound (parse_sound n) n false []))
            fun _ _ _ => trivial
        · intro x hx
          exact ⟨_, _, x, .try h1 h2, by simp, hx⟩
      · exact StuckBy.bind (parseSimple_sound op) (StuckBy.good (parseSimple_g op)) fun _ _ _ _ => StuckBy.pure

theorem expr_stuck {d : Nat} {r : R} (h : (decodeExprWithin d r).1 = .fuel) : Leads d (avail r) := by
  simp only [decodeExprWithin] at h
  have hw := avail_le r
  exact loop_stuck (N := Read.weight r) (fun M hM => parse_stuck _ d M (by omega)) _ _ _ _ (Nat.le_refl _) (by omega) r hw h

end Wadec
