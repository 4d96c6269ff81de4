import Verif.Proof.Leaf
import Verif.Proof.LeafG

/-! Structured instructions and expressions. -/

namespace Wadec

open LawfulRead Spec

variable {R S : Type} [LawfulRead R] [LawfulRead S] {L : Nat}

/-! ### Soundness -/

/-- What `parse` has read when it returns a given result. -/
def BParse (bs : Bytes) : ParseResult → Prop
  | .Instruction i => BInstr bs i
  | .Else => bs = [0x05]
  | .End => bs = [0x0B]

/-- What `parseSeq` has read. -/
def BSeqEnd (allowElse : Bool) (acc : List Instr) (bs : Bytes) (v : List Instr × ParseResult) : Prop :=
  ∃ is b, v.1 = acc ++ is ∧ BInstrs b is ∧
    ((v.2 = .End ∧ bs = b ++ [0x0B]) ∨ (v.2 = .Else ∧ allowElse = true ∧ bs = b ++ [0x05]))

theorem parseSeq_sound {p : Dec R ParseError ParseResult} (hp : Sound p BParse) :
    ∀ (n : Nat) (ae : Bool) (acc : List Instr), Sound (parseSeq p n ae acc) (BSeqEnd ae acc) := by
  intro n
  induction n with
  | zero => intro ae acc; exact Sound.outOfFuel
  | succ n ih =>
    intro ae acc
    refine Sound.bind hp fun res b1 h1 => ?_
    cases res with
    | Instruction i =>
      refine Sound.mono (ih ae (acc ++ [i])) ?_
      rintro bs ⟨is', last⟩ ⟨is, b, h2, h3, h4⟩
      simp only at h2
      refine ⟨i :: is, b1 ++ b, by simp [h2], .cons h1 h3, ?_⟩
      rcases h4 with ⟨h5, rfl⟩ | ⟨h5, h6, rfl⟩
      · exact .inl ⟨h5, by simp⟩
      · exact .inr ⟨h5, h6, by simp⟩
    | Else =>
      refine Sound.ite (fun hae => Sound.pure ?_) fun _ => Sound.err
      cases h1
      exact ⟨[], [], by simp, .nil, .inr ⟨rfl, hae, rfl⟩⟩
    | End =>
      cases h1
      exact Sound.pure ⟨[], [], by simp, .nil, .inl ⟨rfl, rfl⟩⟩

theorem parse_sound : ∀ n, Sound (R := R) (parse n) BParse := by
  intro n
  induction n with
  | zero => exact Sound.outOfFuel
  | succ n ih =>
    refine Sound.bind (Sound.mapErr Sound.readExact) ?_
    rintro buf b ⟨rfl, hl⟩
    match b, hl with
    | [op], _ =>
      refine Sound.ite ?_ fun _ => Sound.ite ?_ fun _ => Sound.ite (fun h => ?_) fun _ =>
        Sound.ite ?_ fun _ => ?_
      · rintro rfl; exact Sound.pure rfl
      · rintro rfl; exact Sound.pure rfl
      · refine Sound.bind (Sound.mapErr BlockType.sound) fun bt b1 h1 => ?_
        refine Sound.bind (parseSeq_sound ih n (op == 0x04) []) ?_
        rintro ⟨in1, parsed⟩ bs2 ⟨is, b2, h2, h3, h4⟩
        simp only [List.nil_append] at h2
        subst h2
        refine Sound.ite ?_ fun _ => Sound.ite ?_ fun _ => Sound.ite ?_ fun _ => Sound.panic
        · rintro rfl
          rcases h4 with ⟨_, rfl⟩ | ⟨_, h5, _⟩
          · exact Sound.pure (by simpa [BParse] using BInstr.block h1 h3)
          · exact absurd h5 (by decide)
        · rintro rfl
          rcases h4 with ⟨_, rfl⟩ | ⟨_, h5, _⟩
          · exact Sound.pure (by simpa [BParse] using BInstr.loop h1 h3)
          · exact absurd h5 (by decide)
        · rintro rfl
          rcases h4 with ⟨h4, rfl⟩ | ⟨h4, _, rfl⟩
          · simp only at h4
            subst h4
            exact Sound.pure (by simpa [BParse] using BInstr.if h1 h3)
          · simp only at h4
            subst h4
            refine Sound.bind (parseSeq_sound ih n false []) ?_
            rintro ⟨in2, last⟩ bs3 ⟨is2, b3, h6, h7, h8⟩
            simp only [List.nil_append] at h6
            subst h6
            rcases h8 with ⟨_, rfl⟩ | ⟨_, h9, _⟩
            · refine Sound.pure ?_
              have := BInstr.ifElse h1 h3 h7
              simpa [BParse] using this
            · cases h9
      · rintro rfl
        refine Sound.bind (Sound.mapErr BlockType.sound) fun bt b1 h1 => ?_
        refine Sound.bind (Sound.mapErr (list_sound Catch.sound)) fun cs b2 h2 => ?_
        refine Sound.bind (parseSeq_sound ih n false []) ?_
        rintro ⟨in2, last⟩ bs3 ⟨is2, b3, h6, h7, h8⟩
        simp only [List.nil_append] at h6
        subst h6
        rcases h8 with ⟨_, rfl⟩ | ⟨_, h9, _⟩
        · exact Sound.pure (by simpa [BParse] using BInstr.tryTable h1 h2 h7)
        · cases h9
      · refine Sound.bind (parseSimple_sound op) ?_
        rintro i imms ⟨b, im, o, h1, h2, h3⟩
        refine Sound.pure ?_
        simp only [List.append_nil, List.singleton_append]
        rw [h1]
        exact BInstr.leaf h2 h3

/-! ### Completeness -/

theorem BInstr.nonempty {i : Instr} : ¬ BInstr [] i := by
  generalize hb : ([] : Bytes) = bs
  intro h
  cases h with
  | leaf h1 h2 => exact LeafEnc.nonempty ⟨_, _, _, hb, h1, h2⟩
  | block => cases hb
  | loop => cases hb
  | «if» => cases hb
  | ifElse => cases hb
  | tryTable => cases hb

theorem BInstr.length_pos {bs : Bytes} {i : Instr} (h : BInstr bs i) : 0 < bs.length := by
  cases bs with
  | nil => exact absurd h BInstr.nonempty
  | cons => simp

theorem parse_end (n : Nat) : Runs (R := R) (parse (n + 1)) [0x0B] .End :=
  Runs.bind (b1 := [0x0B]) (b2 := []) (Runs.mapErr (Runs.readExact rfl)) Runs.pure

theorem parse_else (n : Nat) : Runs (R := R) (parse (n + 1)) [0x05] .Else :=
  Runs.bind (b1 := [0x05]) (b2 := []) (Runs.mapErr (Runs.readExact rfl)) Runs.pure

theorem parseSeq_runs {p : Dec R ParseError ParseResult} {N : Nat} {last : UInt8} {res : ParseResult}
    {ae : Bool} (hp : ∀ bs i, BInstr bs i → bs.length ≤ N → Runs p bs (.Instruction i))
    (hlast : Runs p [last] res) (hres : res = .End ∨ (res = .Else ∧ ae = true)) :
    ∀ (is : List Instr) (bs : Bytes) (m : Nat) (acc : List Instr), BInstrs bs is → bs.length ≤ N →
      bs.length < m → Runs (parseSeq p m ae acc) (bs ++ [last]) (acc ++ is, res) := by
  intro is
  induction is with
  | nil =>
    intro bs m acc h hN hm
    cases h
    match m, hm with
    | m + 1, _ =>
      rw [← List.append_nil ([] ++ [last])]
      refine Runs.bind hlast ?_
      rcases hres with rfl | ⟨rfl, rfl⟩
      · simpa using Runs.pure
      · simpa using Runs.pure
  | cons i is ih =>
    intro bs m acc h hN hm
    cases h with
    | @cons b bs _ _ h1 h2 =>
      have := BInstr.length_pos h1
      simp only [List.length_append] at hN hm
      match m, hm with
      | m + 1, hm =>
        rw [List.append_assoc]
        refine Runs.bind (hp _ _ h1 (by omega)) ?_
        have := ih bs m (acc ++ [i]) h2 (by omega) (by omega)
        simpa using this

theorem parse_runs : ∀ (n : Nat) (bs : Bytes) (i : Instr), BInstr bs i → bs.length ≤ n →
    Runs (R := R) (parse n) bs (.Instruction i) := by
  intro n
  induction n with
  | zero =>
    intro bs i h hl
    have := BInstr.length_pos h
    omega
  | succ n ih =>
    intro bs i h hl
    have seqEnd : ∀ (is : List Instr) (bs : Bytes) (ae : Bool), BInstrs bs is → bs.length < n →
        Runs (R := R) (parseSeq (parse n) n ae []) (bs ++ [0x0B]) (is, .End) := by
      intro is bs ae h1 h2
      match n, h2 with
      | n + 1, h2 => exact parseSeq_runs ih (parse_end n) (.inl rfl) is bs _ [] h1 (by omega) h2
    have seqElse : ∀ (is : List Instr) (bs : Bytes), BInstrs bs is → bs.length < n →
        Runs (R := R) (parseSeq (parse n) n true []) (bs ++ [0x05]) (is, .Else) := by
      intro is bs h1 h2
      match n, h2 with
      | n + 1, h2 => exact parseSeq_runs ih (parse_else n) (.inr ⟨rfl, rfl⟩) is bs _ [] h1 (by omega) h2
    cases h with
    | @leaf b imms o _ h1 h2 =>
      have henc : LeafEnc (b ++ imms) i := ⟨b, imms, o, rfl, h1, h2⟩
      match b ++ imms, henc with
      | [], henc => exact absurd henc LeafEnc.nonempty
      | op :: bs, henc =>
        have hne := LeafEnc.head henc
        simp only [List.mem_cons, List.not_mem_nil, or_false, not_or] at hne
        refine Runs.bind (b1 := [op]) (b2 := bs) (Runs.mapErr (Runs.readExact rfl)) ?_
        refine Runs.ite_neg hne.1 (Runs.ite_neg hne.2.1 (Runs.ite_neg ?_ (Runs.ite_neg hne.2.2.2.2.2 ?_)))
        · rintro ⟨h1, h2⟩
          rw [UInt8.le_iff_toNat_le] at h1 h2
          have h1 : 2 ≤ op.toNat := h1
          have h2 : op.toNat ≤ 4 := h2
          have e2 : op.toNat ≠ 2 := fun h => hne.2.2.1 (UInt8.toNat_inj.1 h)
          have e3 : op.toNat ≠ 3 := fun h => hne.2.2.2.1 (UInt8.toNat_inj.1 h)
          have e4 : op.toNat ≠ 4 := fun h => hne.2.2.2.2.1 (UInt8.toNat_inj.1 h)
          omega
        · exact Runs.bind_pure (parseSimple_runs henc)
    | @block b1 b2 bt is h1 h2 =>
      simp only [List.length_cons, List.length_append, List.length_nil] at hl
      refine Runs.bind (b1 := [0x02]) (b2 := b1 ++ (b2 ++ [0x0B])) (Runs.mapErr (Runs.readExact (R := R) rfl)) ?_
      refine Runs.ite_neg (by decide) (Runs.ite_neg (by decide) (Runs.ite_pos (by decide) ?_))
      refine Runs.bind (Runs.mapErr (BlockType.runs h1)) ?_
      rw [← List.append_nil (b2 ++ [0x0B])]
      refine Runs.bind (seqEnd is b2 _ h2 (by omega)) ?_
      exact Runs.pure
    | @loop b1 b2 bt is h1 h2 =>
      simp only [List.length_cons, List.length_append, List.length_nil] at hl
      refine Runs.bind (b1 := [0x03]) (b2 := b1 ++ (b2 ++ [0x0B])) (Runs.mapErr (Runs.readExact (R := R) rfl)) ?_
      refine Runs.ite_neg (by decide) (Runs.ite_neg (by decide) (Runs.ite_pos (by decide) ?_))
      refine Runs.bind (Runs.mapErr (BlockType.runs h1)) ?_
      rw [← List.append_nil (b2 ++ [0x0B])]
      exact Runs.bind (seqEnd is b2 _ h2 (by omega)) (Runs.ite_neg (by decide) (Runs.ite_pos rfl Runs.pure))
    | @«if» b1 b2 bt is h1 h2 =>
      simp only [List.length_cons, List.length_append, List.length_nil] at hl
      refine Runs.bind (b1 := [0x04]) (b2 := b1 ++ (b2 ++ [0x0B])) (Runs.mapErr (Runs.readExact (R := R) rfl)) ?_
      refine Runs.ite_neg (by decide) (Runs.ite_neg (by decide) (Runs.ite_pos (by decide) ?_))
      refine Runs.bind (Runs.mapErr (BlockType.runs h1)) ?_
      rw [← List.append_nil (b2 ++ [0x0B])]
      exact Runs.bind (seqEnd is b2 _ h2 (by omega)) (Runs.ite_neg (by decide)
        (Runs.ite_neg (by decide) (Runs.ite_pos rfl Runs.pure)))
    | @ifElse b1 b2 b3 bt is1 is2 h1 h2 h3 =>
      simp only [List.length_cons, List.length_append, List.length_nil] at hl
      refine Runs.bind (b1 := [0x04]) (b2 := b1 ++ ((b2 ++ [0x05]) ++ (b3 ++ [0x0B])))
        (Runs.mapErr (Runs.readExact (R := R) rfl)) ?_
      refine Runs.ite_neg (by decide) (Runs.ite_neg (by decide) (Runs.ite_pos (by decide) ?_))
      refine Runs.bind (Runs.mapErr (BlockType.runs h1)) ?_
      refine Runs.bind (seqElse is1 b2 h2 (by omega)) (Runs.ite_neg (by decide)
        (Runs.ite_neg (by decide) (Runs.ite_pos rfl ?_)))
      rw [← List.append_nil (b3 ++ [0x0B])]
      exact Runs.bind (seqEnd is2 b3 false h3 (by omega)) Runs.pure
    | @tryTable b1 b2 b3 bt cs is h1 h2 h3 =>
      simp only [List.length_cons, List.length_append, List.length_nil] at hl
      refine Runs.bind (b1 := [0x1F]) (b2 := b1 ++ (b2 ++ (b3 ++ [0x0B])))
        (Runs.mapErr (Runs.readExact (R := R) rfl)) ?_
      refine Runs.ite_neg (by decide) (Runs.ite_neg (by decide) (Runs.ite_neg (by decide)
        (Runs.ite_pos rfl ?_)))
      refine Runs.bind (Runs.mapErr (BlockType.runs h1)) ?_
      refine Runs.bind (Runs.mapErr (list_runs (fun _ _ => Catch.runs) h2)) ?_
      rw [← List.append_nil (b3 ++ [0x0B])]
      exact Runs.bind (seqEnd is b3 false h3 (by omega)) Runs.pure

/-! ### Totality and independence -/

theorem parseSeq_g {p : Dec R ParseError ParseResult} {p' : Dec S ParseError ParseResult} {N : Nat}
    (hp : ∀ L', L' ≤ N → G 1 L' p p') :
    ∀ (m m' : Nat) (L : Nat) (ae : Bool) (acc : List Instr), L < m → L < m' → L ≤ N →
      G 1 L (parseSeq p m ae acc) (parseSeq p' m' ae acc) := by
  intro m
  induction m with
  | zero => intro m' L ae acc h; omega
  | succ m ih =>
    intro m' L ae acc hm hm' hN
    match m', hm' with
    | m' + 1, hm' =>
      refine G.bind' (k := 1) (j := 0) (hp L hN) (fun h1 res => ?_) (by omega)
      cases res with
      | Instruction i => exact g0 (ih m' (L - 1) ae _ (by omega) (by omega) (by omega))
      | Else => exact G.ite (fun _ => G.pure) fun _ => G.err
      | End => exact G.pure

theorem parse_g : ∀ (n n' L : Nat), L < n → L < n' →
    G 1 L (parse n : Dec R _ _) (parse n' : Dec S _ _) := by
  intro n
  induction n with
  | zero => intro n' L h; omega
  | succ n ih =>
    intro n' L hL hL'
    match n', hL' with
    | n' + 1, hL' =>
      refine G.bindP (k := 1) (j := 0) (Sound.post (Sound.mapErr Sound.readExact))
        (gmap G.readExact) (fun h1 buf hb => ?_) (by omega)
      have seq : ∀ ae, G 0 (L - 1) (parseSeq (parse n) n ae [] : Dec R _ _)
          (parseSeq (parse n') n' ae [] : Dec S _ _) := fun ae =>
        g0 (parseSeq_g (N := L - 1) (fun L' h => ih n' L' (by omega) (by omega)) n n' (L - 1) ae []
          (by omega) (by omega) (Nat.le_refl _))
      obtain ⟨_, _, hl⟩ := hb
      match buf, hl with
      | [op], _ =>
        refine G.ite (fun _ => G.pure) fun _ => G.ite (fun _ => G.pure) fun _ =>
          G.ite (fun ho => ?_) fun _ => G.ite (fun _ => ?_) fun _ => ?_
        · refine G.bind0 (g0 (gmap BlockType.g)) fun bt => ?_
          refine G.bindP (k := 0) (j := 0) (Sound.post (parseSeq_sound (parse_sound n) n _ []))
            (seq _) ?_ (by omega)
          rintro _ ⟨in1, parsed⟩ ⟨_, _, _, _, _, hres⟩
          refine G.ite (fun _ => G.pure) fun h2 => G.ite (fun _ => G.pure) fun h3 =>
            G.ite (fun _ => ?_) fun h4 => ?_
          · cases parsed with
            | Instruction i => rcases hres with ⟨h, _⟩ | ⟨h, _⟩ <;> cases h
            | End => exact G.pure
            | Else =>
              refine G.bind0 (seq _) ?_
              rintro ⟨in2, _⟩
              exact G.pure
          · rw [UInt8.le_iff_toNat_le, UInt8.le_iff_toNat_le] at ho
            have ho1 : 2 ≤ op.toNat := ho.1
            have ho2 : op.toNat ≤ 4 := ho.2
            have e2 : op.toNat ≠ 2 := fun h => h2 (UInt8.toNat_inj.1 h)
            have e3 : op.toNat ≠ 3 := fun h => h3 (UInt8.toNat_inj.1 h)
            have e4 : op.toNat ≠ 4 := fun h => h4 (UInt8.toNat_inj.1 h)
            omega
        · refine G.bind0 (g0 (gmap BlockType.g)) fun bt => ?_
          refine G.bind0 (g0 (gmap (list_g fun _ _ => g0 Catch.g))) fun cs => ?_
          refine G.bind0 (seq _) ?_
          rintro ⟨is, _⟩
          exact G.pure
        · exact G.bind0 (parseSimple_g op) fun _ => G.pure

/-! ### Data indices -/

mutual
theorem containsDataIdx_iff : ∀ i : Instr, containsDataIdx i = true ↔ UsesData i
  | .Block bt body => by
    rw [containsDataIdx, anyContainsDataIdx_iff body]
    constructor
    · rintro ⟨i, h1, h2⟩; exact .block h1 h2
    · intro h
      cases h with
      | block h1 h2 => exact ⟨_, h1, h2⟩
  | .Loop bt body => by
    rw [containsDataIdx, anyContainsDataIdx_iff body]
    constructor
    · rintro ⟨i, h1, h2⟩; exact .loop h1 h2
    · intro h
      cases h with
      | loop h1 h2 => exact ⟨_, h1, h2⟩
  | .TryTable bt cs body => by
    rw [containsDataIdx, anyContainsDataIdx_iff body]
    constructor
    · rintro ⟨i, h1, h2⟩; exact .tryTable h1 h2
    · intro h
      cases h with
      | tryTable h1 h2 => exact ⟨_, h1, h2⟩
  | .If bt body none => by
    rw [containsDataIdx, optContainsDataIdx, Bool.or_false, anyContainsDataIdx_iff body]
    constructor
    · rintro ⟨i, h1, h2⟩; exact .ifThen h1 h2
    · intro h
      cases h with
      | ifThen h1 h2 => exact ⟨_, h1, h2⟩
  | .If bt body (some els) => by
    rw [containsDataIdx, optContainsDataIdx, Bool.or_eq_true, anyContainsDataIdx_iff body,
      anyContainsDataIdx_iff els]
    constructor
    · rintro (⟨i, h1, h2⟩ | ⟨i, h1, h2⟩)
      · exact .ifThen h1 h2
      · exact .ifElse h1 h2
    · intro h
      cases h with
      | ifThen h1 h2 => exact .inl ⟨_, h1, h2⟩
      | ifElse h1 h2 => exact .inr ⟨_, h1, h2⟩
  | .MemoryInit x y => by simp [containsDataIdx, UsesData.memoryInit]
  | .DataDrop x => by simp [containsDataIdx, UsesData.dataDrop]
  | .ArrayNewData x y => by simp [containsDataIdx, UsesData.arrayNewData]
  | .ArrayInitData x y => by simp [containsDataIdx, UsesData.arrayInitData]
  | .plain _ => by simp [containsDataIdx]; intro h; cases h
  | .mem .. => by simp [containsDataIdx]; intro h; cases h
  | .memLane .. => by simp [containsDataIdx]; intro h; cases h
  | .lane .. => by simp [containsDataIdx]; intro h; cases h
  | .Br .. => by simp [containsDataIdx]; intro h; cases h
  | .BrIf .. => by simp [containsDataIdx]; intro h; cases h
  | .BrTable .. => by simp [containsDataIdx]; intro h; cases h
  | .BrOnNull .. => by simp [containsDataIdx]; intro h; cases h
  | .BrOnNonNull .. => by simp [containsDataIdx]; intro h; cases h
  | .BrOnCast .. => by simp [containsDataIdx]; intro h; cases h
  | .BrOnCastFail .. => by simp [containsDataIdx]; intro h; cases h
  | .Call .. => by simp [containsDataIdx]; intro h; cases h
  | .CallRef .. => by simp [containsDataIdx]; intro h; cases h
  | .CallIndirect .. => by simp [containsDataIdx]; intro h; cases h
  | .ReturnCall .. => by simp [containsDataIdx]; intro h; cases h
  | .ReturnCallRef .. => by simp [containsDataIdx]; intro h; cases h
  | .ReturnCallIndirect .. => by simp [containsDataIdx]; intro h; cases h
  | .Throw .. => by simp [containsDataIdx]; intro h; cases h
  | .RefFunc .. => by simp [containsDataIdx]; intro h; cases h
  | .RefNull .. => by simp [containsDataIdx]; intro h; cases h
  | .RefTest .. => by simp [containsDataIdx]; intro h; cases h
  | .RefCast .. => by simp [containsDataIdx]; intro h; cases h
  | .StructNew .. => by simp [containsDataIdx]; intro h; cases h
  | .StructNewDefault .. => by simp [containsDataIdx]; intro h; cases h
  | .StructGet .. => by simp [containsDataIdx]; intro h; cases h
  | .StructGetS .. => by simp [containsDataIdx]; intro h; cases h
  | .StructGetU .. => by simp [containsDataIdx]; intro h; cases h
  | .StructSet .. => by simp [containsDataIdx]; intro h; cases h
  | .ArrayNew .. => by simp [containsDataIdx]; intro h; cases h
  | .ArrayNewDefault .. => by simp [containsDataIdx]; intro h; cases h
  | .ArrayNewFixed .. => by simp [containsDataIdx]; intro h; cases h
  | .ArrayNewElem .. => by simp [containsDataIdx]; intro h; cases h
  | .ArrayGet .. => by simp [containsDataIdx]; intro h; cases h
  | .ArrayGetS .. => by simp [containsDataIdx]; intro h; cases h
  | .ArrayGetU .. => by simp [containsDataIdx]; intro h; cases h
  | .ArraySet .. => by simp [containsDataIdx]; intro h; cases h
  | .ArrayFill .. => by simp [containsDataIdx]; intro h; cases h
  | .ArrayCopy .. => by simp [containsDataIdx]; intro h; cases h
  | .ArrayInitElem .. => by simp [containsDataIdx]; intro h; cases h
  | .Select .. => by simp [containsDataIdx]; intro h; cases h
  | .LocalGet .. => by simp [containsDataIdx]; intro h; cases h
  | .LocalSet .. => by simp [containsDataIdx]; intro h; cases h
  | .LocalTee .. => by simp [containsDataIdx]; intro h; cases h
  | .GlobalGet .. => by simp [containsDataIdx]; intro h; cases h
  | .GlobalSet .. => by simp [containsDataIdx]; intro h; cases h
  | .TableGet .. => by simp [containsDataIdx]; intro h; cases h
  | .TableSet .. => by simp [containsDataIdx]; intro h; cases h
  | .TableInit .. => by simp [containsDataIdx]; intro h; cases h
  | .ElemDrop .. => by simp [containsDataIdx]; intro h; cases h
  | .TableCopy .. => by simp [containsDataIdx]; intro h; cases h
  | .TableGrow .. => by simp [containsDataIdx]; intro h; cases h
  | .TableSize .. => by simp [containsDataIdx]; intro h; cases h
  | .TableFill .. => by simp [containsDataIdx]; intro h; cases h
  | .MemorySize .. => by simp [containsDataIdx]; intro h; cases h
  | .MemoryGrow .. => by simp [containsDataIdx]; intro h; cases h
  | .MemoryCopy .. => by simp [containsDataIdx]; intro h; cases h
  | .MemoryFill .. => by simp [containsDataIdx]; intro h; cases h
  | .I32Const .. => by simp [containsDataIdx]; intro h; cases h
  | .I64Const .. => by simp [containsDataIdx]; intro h; cases h
  | .F32Const .. => by simp [containsDataIdx]; intro h; cases h
  | .F64Const .. => by simp [containsDataIdx]; intro h; cases h
  | .V128Const .. => by simp [containsDataIdx]; intro h; cases h
  | .I8x16Shuffle .. => by simp [containsDataIdx]; intro h; cases h
theorem anyContainsDataIdx_iff : ∀ is : List Instr, anyContainsDataIdx is = true ↔
    ∃ i ∈ is, UsesData i
  | [] => by simp [anyContainsDataIdx]
  | i :: is => by
    rw [anyContainsDataIdx, Bool.or_eq_true, containsDataIdx_iff i, anyContainsDataIdx_iff is]
    simp
end

/-! ### Expressions -/

/-- `decode_expr`: the expression, and whether it contains a data index. -/
def BExprD (bs : Bytes) (v : Expr × Bool) : Prop := BExpr bs v.1 ∧ v.2 = anyContainsDataIdx v.1

theorem anyContainsDataIdx_append (a b : List Instr) :
    anyContainsDataIdx (a ++ b) = (anyContainsDataIdx a || anyContainsDataIdx b) := by
  induction a with
  | nil => simp [anyContainsDataIdx]
  | cons x a ih => simp [anyContainsDataIdx, ih, Bool.or_assoc]

theorem exprLoop_sound {p : Dec R ParseError ParseResult} (hp : Sound p BParse) :
    ∀ (n : Nat) (body : List Instr) (d : Bool),
      Sound (decodeExprLoop p n body d) (fun bs v => ∃ is, v.1 = body ++ is ∧
        v.2 = (d || anyContainsDataIdx is) ∧ BExpr bs is) := by
  intro n
  induction n with
  | zero => intro body d; exact Sound.outOfFuel
  | succ n ih =>
    intro body d
    refine Sound.bind (Sound.mapErr hp) fun res b1 h1 => ?_
    cases res with
    | Instruction i =>
      refine Sound.mono (ih _ _) ?_
      rintro bs ⟨e, dd⟩ ⟨is, h2, h3, h4⟩
      simp only at h2 h3
      refine ⟨i :: is, by simp [h2], ?_, ?_⟩
      · rw [h3]
        cases hc : containsDataIdx i <;> simp [anyContainsDataIdx, hc]
      · cases h4 with
        | mk h5 => rw [← List.append_assoc]; exact .mk (.cons h1 h5)
    | Else => exact Sound.err
    | End =>
      cases h1
      exact Sound.pure ⟨[], by simp, by simp [anyContainsDataIdx], .mk .nil⟩

theorem expr_sound : Sound (R := R) decodeExpr BExprD := by
  intro r v r' h
  obtain ⟨bs, h1, is, h2, h3, h4⟩ := exprLoop_sound (parse_sound _) _ _ _ r v r' h
  refine ⟨bs, h1, ?_⟩
  simp only [List.nil_append, Bool.false_or] at h2 h3
  exact ⟨h2 ▸ h4, h2 ▸ h3⟩

theorem exprLoop_runs {p : Dec R ParseError ParseResult} {N : Nat}
    (hp : ∀ bs i, BInstr bs i → bs.length ≤ N → Runs p bs (.Instruction i))
    (hend : Runs p [0x0B] .End) :
    ∀ (is : List Instr) (bs : Bytes) (n : Nat) (body : List Instr) (d : Bool), BInstrs bs is →
      bs.length ≤ N → bs.length < n →
      Runs (decodeExprLoop p n body d) (bs ++ [0x0B]) (body ++ is, d || anyContainsDataIdx is) := by
  intro is
  induction is with
  | nil =>
    intro bs n body d h hN hn
    cases h
    match n, hn with
    | n + 1, _ =>
      rw [← List.append_nil ([] ++ [0x0B])]
      refine Runs.bind (Runs.mapErr hend) ?_
      simpa [anyContainsDataIdx] using Runs.pure
  | cons i is ih =>
    intro bs n body d h hN hn
    cases h with
    | @cons b bs _ _ h1 h2 =>
      have := BInstr.length_pos h1
      simp only [List.length_append] at hN hn
      match n, hn with
      | n + 1, hn =>
        rw [List.append_assoc]
        refine Runs.bind (Runs.mapErr (hp _ _ h1 (by omega))) ?_
        have := ih bs n (body ++ [i]) (if containsDataIdx i then true else d) h2 (by omega) (by omega)
        cases hc : containsDataIdx i <;> simpa [anyContainsDataIdx, hc] using this

theorem expr_runs {bs : Bytes} {v : Expr × Bool} (h : BExprD bs v) :
    Runs (R := R) decodeExpr bs v := by
  obtain ⟨e, d⟩ := v
  obtain ⟨h, hd⟩ := h
  simp only at h hd
  subst hd
  intro r rest ha
  cases h with
  | @mk bs _ h =>
    have hw := avail_le r
    have := congrArg List.length ha
    simp only [List.length_append, List.length_cons, List.length_nil] at this
    have := exprLoop_runs (R := R) (N := Read.weight r + 1) (parse_runs (Read.weight r + 1)) (parse_end _) e bs
      (Read.weight r + 1) [] false h (by omega) (by omega) r rest ha
    simpa [decodeExpr] using this

theorem exprLoop_g {p : Dec R ParseError ParseResult} {p' : Dec S ParseError ParseResult} {N : Nat}
    (hp : ∀ L', L' ≤ N → G 1 L' p p') :
    ∀ (n n' L : Nat) (body : List Instr) (d : Bool), L < n → L < n' → L ≤ N →
      G 1 L (decodeExprLoop p n body d) (decodeExprLoop p' n' body d) := by
  intro n
  induction n with
  | zero => intro n' L ae acc h; omega
  | succ n ih =>
    intro n' L body d hm hm' hN
    match n', hm' with
    | n' + 1, hm' =>
      refine G.bind' (k := 1) (j := 0) (gmap (hp L hN)) (fun h1 res => ?_) (by omega)
      cases res with
      | Instruction i => exact g0 (ih n' (L - 1) _ _ (by omega) (by omega) (by omega))
      | Else => exact G.err
      | End => exact G.pure

theorem expr_g : G 1 L (decodeExpr : Dec R _ _) (decodeExpr : Dec S _ _) := by
  intro r s hL hp
  have h1 := avail_le r
  have h2 := avail_le s
  have hlen := hp.length_le
  exact exprLoop_g (R := R) (S := S) (N := (avail r).length)
    (fun L' h => parse_g (Read.weight r + 1) (Read.weight s + 1) L' (by omega) (by omega))
    (Read.weight r + 1) (Read.weight s + 1) (avail r).length [] false (by omega) (by omega)
    (Nat.le_refl _) r s (Nat.le_refl _) hp

end Wadec
