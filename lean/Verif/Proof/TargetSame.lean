import Verif.Model.Target
import Verif.Proof.Uses

/-! Decoding on a target is decoding, unless the target has no room for a vector that was asked for: `Tied c d` (C77). -/

namespace Wadec.Bounded

variable {R : Type} {ε ε' α β σ : Type}

/-- What can be said of a length once it has been asked for. -/
class Ledger (R : Type) [Read R] where
  seen : R → Nat → Prop
  read : ∀ n r m, seen r m → seen (Read.read n r).2 m
  keep : ∀ n r m, seen r m → seen (Read.reserve n r) m
  add : ∀ n r, n < 2 ^ 32 → seen (Read.reserve n r) n
  unread : ∀ n r m, seen (Read.read n r).2 m → seen r m
  unkeep : ∀ n r m, seen (Read.reserve n r) m → m = n ∨ seen r m

instance [Read R] [Ledger R] : Ledger (Take R) where
  seen t m := Ledger.seen t.inner m
  read n t m h := by
    simp only [Read.read, Take.read]
    split
    · exact h
    · have := Ledger.read (min n t.limit) t.inner m h
      split <;> rename_i hr <;> rw [hr] at this <;> exact this
  keep n t m h := Ledger.keep n t.inner m h
  add n t h := Ledger.add n t.inner h
  unread n t m h := by
    simp only [Read.read, Take.read] at h
    split at h
    · exact h
    · have := Ledger.unread (min n t.limit) t.inner m
      split at h <;> rename_i hr <;> rw [hr] at this <;> exact this h
  unkeep n t m h := Ledger.unkeep n t.inner m h

instance [Read R] [Ledger R] : Ledger (Chain R) where
  seen t m := Ledger.seen t.inner m
  read n c m h := by
    simp only [Read.read, Chain.read]
    split
    · exact Ledger.read _ _ _ h
    · exact h
  keep n t m h := Ledger.keep n t.inner m h
  add n t h := Ledger.add n t.inner h
  unread n c m h := by
    simp only [Read.read, Chain.read] at h
    split at h
    · exact Ledger.unread _ _ _ h
    · exact h
  unkeep n t m h := Ledger.unkeep n t.inner m h

/-- The target has no room for a vector of a length that was asked for. -/
def Lacks [Read R] [Ledger R] (T : Target) (r : R) : Prop := ∃ k n, T.fits k n = false ∧ Ledger.seen r n

/-- The target has room for a vector of every length that was asked for. -/
def Holds [Read R] [Ledger R] (T : Target) (r : R) : Prop := ∀ n, Ledger.seen r n → ∃ k, T.fits k n = true

/-- `c` does what `d` does, or panics for want of room. -/
structure Tied [Read R] [Ledger R] (c : Dec R ε α) (d : Wadec.Dec R ε α) : Prop where
  keeps : ∀ r m, Ledger.seen r m → Ledger.seen (d r).2 m
  same : ∀ r T, (c r T = d r ∧ (Holds T r → Holds T (d r).2)) ∨ ((c r T).1 = .panic ∧ Lacks T (d r).2)

theorem Uses.keeps [Read R] [Ledger R] {d : Wadec.Dec R ε α} (h : Uses d) : ∀ r m, Ledger.seen r m → Ledger.seen (d r).2 m :=
  h (fun a b => ∀ m, Ledger.seen a m → Ledger.seen b m) (fun _ _ h => h) (fun _ _ _ h1 h2 m h => h2 m (h1 m h))
    (fun n r _ m h => Ledger.read n r m h) (fun n r m h => Ledger.keep n r m h)

theorem Lacks.keeps [Read R] [Ledger R] {d : Wadec.Dec R ε α} (h : ∀ r m, Ledger.seen r m → Ledger.seen (d r).2 m) {T : Target}
    {r : R} : Lacks T r → Lacks T (d r).2 := fun ⟨k, n, h1, h2⟩ => ⟨k, n, h1, h r n h2⟩

namespace Tied

section
variable [Read R] [Ledger R]

theorem quiet {d : Wadec.Dec R ε α} (h : Quiet d) : Tied (Dec.lift d) d :=
  ⟨Uses.keeps h.uses, fun r T => .inl ⟨rfl, fun hr n hn => hr n (h (fun a b => ∀ m, Ledger.seen b m → Ledger.seen a m) (fun _ _ h => h)
    (fun _ _ _ h1 h2 m h => h1 m (h2 m h)) (fun n r _ m h => Ledger.unread n r m h) r n hn)⟩⟩
theorem pure {a : α} : Tied (Pure.pure a : Dec R ε α) (Pure.pure a : Wadec.Dec R ε α) := ⟨fun _ _ h => h, fun _ _ => .inl ⟨rfl, id⟩⟩
theorem err {e : ε} : Tied (Dec.err e : Dec R ε α) (Wadec.Dec.err e) := ⟨fun _ _ h => h, fun _ _ => .inl ⟨rfl, id⟩⟩
theorem panic : Tied (Dec.panic : Dec R ε α) Wadec.Dec.panic := ⟨fun _ _ h => h, fun _ _ => .inl ⟨rfl, id⟩⟩
theorem fuel : Tied (Dec.outOfFuel : Dec R ε α) Wadec.Dec.outOfFuel := ⟨fun _ _ h => h, fun _ _ => .inl ⟨rfl, id⟩⟩

theorem reserve {k : ElemKind} {n : UInt32} : Tied (Dec.reserve k n.toNat : Dec R ε Unit) (Wadec.Dec.reserve n.toNat) where
  keeps := fun r m h => Ledger.keep n.toNat r m h
  same := fun r T => by
    unfold Dec.reserve
    cases h : T.fits k n.toNat with
    | true =>
      refine .inl ⟨rfl, fun hr m hm => ?_⟩
      rcases Ledger.unkeep n.toNat r m hm with rfl | hm
      · exact ⟨k, h⟩
      · exact hr m hm
    | false => exact .inr ⟨rfl, k, n.toNat, h, Ledger.add n.toNat r n.toNat_lt⟩

theorem bind {c : Dec R ε α} {d : Wadec.Dec R ε α} {f : α → Dec R ε β} {g : α → Wadec.Dec R ε β} (h : Tied c d)
    (hf : ∀ a, Tied (f a) (g a)) : Tied (c >>= f) (d >>= g) where
  keeps := fun r m hm => by
    show Ledger.seen (Wadec.Dec.bind d g r).2 m
    have := h.keeps r m hm
    unfold Wadec.Dec.bind
    generalize d r = x at this ⊢
    obtain ⟨res, r'⟩ := x
    cases res <;> first | exact this | exact (hf _).keeps _ _ this
  same := fun r T => by
    show (Dec.bind c f r T = Wadec.Dec.bind d g r ∧ (Holds T r → Holds T (Wadec.Dec.bind d g r).2)) ∨ ((Dec.bind c f r T).1 = .panic ∧ Lacks T (Wadec.Dec.bind d g r).2)
    have := h.same r T
    unfold Dec.bind Wadec.Dec.bind
    generalize c r T = x at this ⊢
    generalize d r = y at this ⊢
    rcases this with ⟨rfl, h0⟩ | ⟨h1, h2⟩
    · obtain ⟨res, r'⟩ := x
      cases res <;> first
        | exact .inl ⟨rfl, h0⟩
        | exact ((hf _).same _ _).imp (fun ⟨h3, h4⟩ => ⟨h3, fun h => h4 (h0 h)⟩) id
    · obtain ⟨res, r'⟩ := x
      obtain ⟨res', r''⟩ := y
      cases h1
      refine .inr ⟨rfl, ?_⟩
      cases res' <;> first | exact h2 | exact Lacks.keeps (hf _).keeps h2

theorem mapErr {c : Dec R ε α} {d : Wadec.Dec R ε α} {f : ε → ε'} (h : Tied c d) : Tied (c.mapErr f) (d.mapErr f) where
  keeps := fun r m hm => by
    have := h.keeps r m hm
    unfold Wadec.Dec.mapErr
    generalize d r = x at this ⊢
    obtain ⟨res, r'⟩ := x
    cases res <;> exact this
  same := fun r T => by
    have := h.same r T
    unfold Dec.mapErr Wadec.Dec.mapErr
    generalize c r T = x at this ⊢
    generalize d r = y at this ⊢
    rcases this with ⟨rfl, h0⟩ | ⟨h1, h2⟩
    · obtain ⟨res, r'⟩ := x
      cases res <;> exact .inl ⟨rfl, h0⟩
    · obtain ⟨res, r'⟩ := x
      obtain ⟨res', r''⟩ := y
      cases h1
      refine .inr ⟨rfl, ?_⟩
      cases res' <;> exact h2

theorem chain {b : UInt8} {c : Dec (Chain R) ε α} {d : Wadec.Dec (Chain R) ε α} (h : Tied c d) :
    Tied (Dec.withChain b c) (Wadec.Dec.withChain b d) where
  keeps := fun r m hm => h.keeps ⟨[b], r⟩ m hm
  same := fun r T => by
    have := h.same ⟨[b], r⟩ T
    unfold Dec.withChain Wadec.Dec.withChain
    generalize c ⟨[b], r⟩ T = x at this ⊢
    generalize d ⟨[b], r⟩ = y at this ⊢
    rcases this with ⟨rfl, h0⟩ | ⟨h1, h2⟩
    · exact .inl ⟨rfl, h0⟩
    · exact .inr ⟨h1, h2⟩

theorem take {n : Nat} {c : Dec (Take R) ε α} {d : Wadec.Dec (Take R) ε α} (h : Tied c d) :
    Tied (Dec.withTake n c) (Wadec.Dec.withTake n d) where
  keeps := fun r m hm => by
    have := h.keeps ⟨n, r⟩ m hm
    unfold Wadec.Dec.withTake
    generalize d ⟨n, r⟩ = x at this ⊢
    obtain ⟨res, r'⟩ := x
    cases res <;> exact this
  same := fun r T => by
    have := h.same ⟨n, r⟩ T
    unfold Dec.withTake Wadec.Dec.withTake
    generalize c ⟨n, r⟩ T = x at this ⊢
    generalize d ⟨n, r⟩ = y at this ⊢
    rcases this with ⟨rfl, h0⟩ | ⟨h1, h2⟩
    · obtain ⟨res, r'⟩ := x
      cases res <;> exact .inl ⟨rfl, h0⟩
    · obtain ⟨res, r'⟩ := x
      obtain ⟨res', r''⟩ := y
      cases h1
      refine .inr ⟨rfl, ?_⟩
      cases res' <;> exact h2

theorem ite {p : Prop} [Decidable p] {a b : Dec R ε α} {a' b' : Wadec.Dec R ε α} (ha : p → Tied a a') (hb : ¬ p → Tied b b') :
    Tied (if p then a else b) (if p then a' else b') := by
  split <;> rename_i h
  · exact ha h
  · exact hb h

end
end Tied

variable [Read R] [Ledger R]

omit [Ledger R] in
theorem codeLocal_q {st : UInt64} : Quiet (Wadec.parseCodeLocal st : Wadec.Dec R _ _) := by
  refine Quiet.bind (Quiet.mapErr u32_q) fun n => Quiet.ite Quiet.panic (Quiet.ite Quiet.err ?_)
  exact Quiet.bind (Quiet.mapErr ValType.q) fun _ => Quiet.pure

/-- The functions already dealt with. -/
class Tie (c : Dec R ε α) (d : Wadec.Dec R ε α) : Prop where
  tied : Tied c d

/-- One structural step. -/
syntax "tie1" : tactic
macro_rules | `(tactic| tie1) => `(tactic| with_reducible first
  | assumption
  | refine Tied.bind ?_ fun _ => ?_
  | refine Tied.mapErr ?_
  | refine Tied.ite (fun _ => ?_) (fun _ => ?_)
  | exact Tied.pure | exact Tied.err | exact Tied.panic | exact Tied.fuel | exact Tied.reserve
  | refine Tied.chain ?_
  | refine Tied.take ?_
  | exact Tie.tied)
macro "ties" : tactic => `(tactic| repeat' (first | tie1 | (dsimp only; tie1) | (split <;> first | (rename_i heq; simp only [heq]; done) | (rename_i heq; simp only [heq]; tie1) | skip)))

instance : Tie (R := R) readToEnd Wadec.readToEnd := ⟨Tied.quiet Quiet.readToEnd⟩
instance {n : Nat} : Tie (R := R) (readExact n) (Wadec.readExact n) := ⟨Tied.quiet Quiet.readExact⟩
instance : Tie (R := R) readByte Wadec.readByte := ⟨Tied.quiet Quiet.readByte⟩
instance : Tie (R := R) decodeU32 Wadec.decodeU32 := ⟨Tied.quiet u32_q⟩
instance : Tie (R := R) decodeI32 Wadec.decodeI32 := ⟨Tied.quiet i32_q⟩
instance : Tie (R := R) decodeI64 Wadec.decodeI64 := ⟨Tied.quiet i64_q⟩
instance : Tie (R := R) decodeF32 Wadec.decodeF32 := ⟨Tied.quiet f32_q⟩
instance : Tie (R := R) decodeF64 Wadec.decodeF64 := ⟨Tied.quiet f64_q⟩
instance : Tie (R := R) TypeIdx.decode Wadec.TypeIdx.decode := ⟨Tied.quiet TypeIdx.q⟩
instance : Tie (R := R) FuncIdx.decode Wadec.FuncIdx.decode := ⟨Tied.quiet FuncIdx.q⟩
instance : Tie (R := R) TableIdx.decode Wadec.TableIdx.decode := ⟨Tied.quiet TableIdx.q⟩
instance : Tie (R := R) MemIdx.decode Wadec.MemIdx.decode := ⟨Tied.quiet MemIdx.q⟩
instance : Tie (R := R) LabelIdx.decode Wadec.LabelIdx.decode := ⟨Tied.quiet LabelIdx.q⟩
instance : Tie (R := R) TagIdx.decode Wadec.TagIdx.decode := ⟨Tied.quiet TagIdx.q⟩
instance : Tie (R := R) RefType.decode Wadec.RefType.decode := ⟨Tied.quiet RefType.q⟩
instance : Tie (R := R) ValType.decode Wadec.ValType.decode := ⟨Tied.quiet ValType.q⟩
instance : Tie (R := R) GlobalType.decode Wadec.GlobalType.decode := ⟨Tied.quiet GlobalType.q⟩
instance : Tie (R := R) decodeFieldType Wadec.decodeFieldType := ⟨Tied.quiet fieldType_q⟩
instance : Tie (R := R) parseMemType Wadec.parseMemType := ⟨Tied.quiet memType_q⟩
instance : Tie (R := R) TableType.decode Wadec.TableType.decode := ⟨Tied.quiet TableType.q⟩
instance : Tie (R := R) TagType.decode Wadec.TagType.decode := ⟨Tied.quiet TagType.q⟩
instance : Tie (R := R) ExternType.decode Wadec.ExternType.decode := ⟨Tied.quiet ExternType.q⟩
instance : Tie (R := R) Memarg.decode Wadec.Memarg.decode := ⟨Tied.quiet Memarg.q⟩
instance : Tie (R := R) BlockType.decode Wadec.BlockType.decode := ⟨Tied.quiet BlockType.q⟩
instance : Tie (R := R) Catch.decode Wadec.Catch.decode := ⟨Tied.quiet Catch.q⟩
instance : Tie (R := R) refHeap Wadec.refHeap := ⟨Tied.quiet (Quiet.mapErr HeapType.q)⟩
instance : Tie (R := R) ctlLabel Wadec.ctlLabel := ⟨Tied.quiet (Quiet.mapErr LabelIdx.q)⟩
instance : Tie (R := R) ctlFunc Wadec.ctlFunc := ⟨Tied.quiet (Quiet.mapErr FuncIdx.q)⟩
instance : Tie (R := R) ctlType Wadec.ctlType := ⟨Tied.quiet (Quiet.mapErr TypeIdx.q)⟩
instance : Tie (R := R) ctlTable Wadec.ctlTable := ⟨Tied.quiet (Quiet.mapErr TableIdx.q)⟩
instance : Tie (R := R) tabTable Wadec.tabTable := ⟨Tied.quiet (Quiet.mapErr TableIdx.q)⟩
instance : Tie (R := R) memMem Wadec.memMem := ⟨Tied.quiet (Quiet.mapErr MemIdx.q)⟩
instance : Tie (R := R) varLocal Wadec.varLocal := ⟨Tied.quiet (Quiet.mapErr LocalIdx.q)⟩
instance : Tie (R := R) varGlobal Wadec.varGlobal := ⟨Tied.quiet (Quiet.mapErr GlobalIdx.q)⟩
instance {op : UInt32} : Tie (R := R) (parseFB op) (Wadec.parseFB op) := ⟨Tied.quiet parseFB_q⟩
instance {op : UInt32} : Tie (R := R) (parseFC op) (Wadec.parseFC op) := ⟨Tied.quiet parseFC_q⟩
instance {op : UInt32} : Tie (R := R) (parseFD op) (Wadec.parseFD op) := ⟨Tied.quiet parseFD_q⟩
instance {n : UInt64} : Tie (R := R) (parseCodeLocal n) (Wadec.parseCodeLocal n) := ⟨Tied.quiet codeLocal_q⟩
instance : Tie (R := R) decodeDatacountSection Wadec.decodeDatacountSection := ⟨Tied.quiet (Quiet.mapErr u32_q)⟩
instance : Tie (R := R) decodeStartSection Wadec.decodeStartSection := ⟨Tied.quiet (Quiet.mapErr FuncIdx.q)⟩
instance : Tie (R := R) parseElemKind Wadec.parseElemKind := ⟨Tied.quiet (by unfold Wadec.parseElemKind; quiet)⟩
instance {b : UInt8} {n : UInt32} : Tie (R := R) (ExternIdx.from b n) (Wadec.ExternIdx.from b n) :=
  ⟨Tied.quiet (by unfold Wadec.ExternIdx.from; quiet)⟩
instance {m : Module} {k : SectionKind} : Tie (R := R) (Module.validateSectionKindExpected m k) (Wadec.Module.validateSectionKindExpected m k) :=
  ⟨Tied.quiet (by unfold Wadec.Module.validateSectionKindExpected; quiet)⟩
instance : Tie (R := R) parsePreamble Wadec.parsePreamble := ⟨Tied.quiet preamble_q⟩
instance : Tie (R := R) decodeSectionHeader Wadec.decodeSectionHeader := ⟨Tied.quiet header_q⟩
instance {st : LoopState} : Tie (R := R) (finalChecks st) (Wadec.finalChecks st) := ⟨Tied.quiet finalChecks_q⟩

/-! ### Decoders with lists -/

theorem tied_listLoop {f : σ → Dec R ε (α × σ)} {g : σ → Wadec.Dec R ε (α × σ)} (h : ∀ st, Tied (f st) (g st)) :
    ∀ n i st items, Tied (decodeListLoop f n i st items) (Wadec.decodeListLoop g n i st items)
  | 0, _, _, _ => Tied.pure
  | n + 1, i, st, items => Tied.bind (Tied.mapErr (h st)) fun ⟨_, _⟩ => tied_listLoop h n _ _ _

theorem tied_listS [Element α] {f : σ → Dec R ε (α × σ)} {g : σ → Wadec.Dec R ε (α × σ)} (h : ∀ st, Tied (f st) (g st)) (st : σ) :
    Tied (decodeListS f st) (Wadec.decodeListS g st) :=
  Tied.bind (Tied.mapErr Tie.tied) fun _ => Tied.bind Tied.reserve fun _ => tied_listLoop h _ _ _ _

theorem tied_list [Element α] {f : Dec R ε α} {g : Wadec.Dec R ε α} (h : Tied f g) :
    Tied (decodeList f) (Wadec.decodeList g) :=
  Tied.bind (tied_listS (fun _ => Tied.bind h fun _ => Tied.pure) ()) fun ⟨_, _⟩ => Tied.pure

instance [Element α] {f : Dec R ε α} {g : Wadec.Dec R ε α} [h : Tie f g] : Tie (decodeList f) (Wadec.decodeList g) :=
  ⟨tied_list h.tied⟩

instance : Tie (R := R) decodeByteVector Wadec.decodeByteVector :=
  ⟨Tied.bind (Tied.mapErr Tie.tied) fun _ => Tied.bind Tied.reserve fun _ => Tied.mapErr Tie.tied⟩

instance : Tie (R := R) decodeName Wadec.decodeName :=
  ⟨Tied.bind (Tied.mapErr Tie.tied) fun bs => by cases h : utf8Check 0 bs <;> simp only [h] <;> tie1⟩

instance : Tie (R := R) decodeResultType Wadec.decodeResultType := ⟨Tied.mapErr Tie.tied⟩

instance : Tie (R := R) CompType.decode Wadec.CompType.decode := ⟨by unfold CompType.decode Wadec.CompType.decode; ties⟩
instance : Tie (R := R) SubType.decode Wadec.SubType.decode := ⟨by unfold SubType.decode Wadec.SubType.decode; ties⟩
instance : Tie (R := R) RecType.decode Wadec.RecType.decode := ⟨by unfold RecType.decode Wadec.RecType.decode; ties⟩

instance {op : UInt8} : Tie (R := R) (parseSimple op) (Wadec.parseSimple op) := ⟨by unfold parseSimple Wadec.parseSimple; ties⟩

theorem tied_parseSeq {p : Dec R ParseError ParseResult} {q : Wadec.Dec R ParseError ParseResult} (h : Tied p q) :
    ∀ n b acc, Tied (parseSeq p n b acc) (Wadec.parseSeq q n b acc)
  | 0, _, _ => Tied.fuel
  | n + 1, b, acc => by
    refine Tied.bind h fun x => ?_
    cases x
    · exact tied_parseSeq h n _ _
    · exact Tied.ite (fun _ => Tied.pure) fun _ => Tied.err
    · exact Tied.pure

theorem tied_parse : ∀ n, Tied (R := R) (parse n) (Wadec.parse n)
  | 0 => Tied.fuel
  | n + 1 => by
    have ih := tied_parseSeq (tied_parse n)
    refine Tied.bind (Tied.mapErr Tie.tied) fun v => ?_
    split
    · rename_i op
      refine Tied.ite (fun _ => Tied.pure) fun _ => Tied.ite (fun _ => Tied.pure) fun _ => Tied.ite (fun _ => ?_) fun _ =>
        Tied.ite (fun _ => ?_) fun _ => Tied.bind Tie.tied fun _ => Tied.pure
      · refine Tied.bind (Tied.mapErr Tie.tied) fun bt => Tied.bind (ih _ _ _) fun x => ?_
        obtain ⟨in1, parsed⟩ := x
        refine Tied.ite (fun _ => Tied.pure) fun _ => Tied.ite (fun _ => Tied.pure) fun _ => Tied.ite (fun _ => ?_) fun _ =>
          Tied.panic
        cases parsed
        · exact Tied.panic
        · exact Tied.bind (ih _ _ _) fun ⟨_, _⟩ => Tied.pure
        · exact Tied.pure
      · exact Tied.bind (Tied.mapErr Tie.tied) fun _ => Tied.bind (Tied.mapErr Tie.tied) fun _ => Tied.bind (ih _ _ _) fun ⟨_, _⟩ =>
          Tied.pure
    · rename_i hb
      split
      · exact absurd rfl (hb _)
      · exact Tied.panic

theorem tied_exprLoop {p : Dec R ParseError ParseResult} {q : Wadec.Dec R ParseError ParseResult} (h : Tied p q) :
    ∀ n b e, Tied (decodeExprLoop p n b e) (Wadec.decodeExprLoop q n b e)
  | 0, _, _ => Tied.fuel
  | n + 1, b, e => by
    refine Tied.bind (Tied.mapErr h) fun x => ?_
    cases x
    · exact tied_exprLoop h n _ _
    · exact Tied.err
    · exact Tied.pure

instance : Tie (R := R) decodeExpr Wadec.decodeExpr where
  tied := ⟨fun r => (tied_exprLoop (tied_parse _) _ _ _).keeps r, fun r => (tied_exprLoop (tied_parse _) _ _ _).same r⟩

/-! ### Sections -/

instance : Tie (R := R) parseCodeBody Wadec.parseCodeBody :=
  ⟨Tied.bind (Tied.mapErr (tied_listS (fun _ => Tie.tied) 0)) fun ⟨_, _⟩ => Tied.bind (Tied.mapErr Tie.tied) fun ⟨_, _⟩ => Tied.pure⟩
instance : Tie (R := R) parseCode Wadec.parseCode := ⟨by unfold parseCode Wadec.parseCode; ties⟩
instance : Tie (R := R) decodeCodeSection Wadec.decodeCodeSection := ⟨Tied.mapErr Tie.tied⟩
instance : Tie (R := R) decodeSectionCustom Wadec.decodeSectionCustom :=
  ⟨by unfold decodeSectionCustom Wadec.decodeSectionCustom; ties⟩
instance : Tie (R := R) decodeExpr' Wadec.decodeExpr' := ⟨by unfold decodeExpr' Wadec.decodeExpr'; ties⟩
instance : Tie (R := R) parseData Wadec.parseData := ⟨by unfold parseData Wadec.parseData; ties⟩
instance : Tie (R := R) decodeDataSection Wadec.decodeDataSection := ⟨Tied.mapErr Tie.tied⟩
instance : Tie (R := R) elemFuncs Wadec.elemFuncs := ⟨Tied.mapErr Tie.tied⟩
instance : Tie (R := R) elemExprs Wadec.elemExprs := ⟨Tied.mapErr Tie.tied⟩
instance : Tie (R := R) parseElem Wadec.parseElem := ⟨by unfold parseElem Wadec.parseElem; ties⟩
instance : Tie (R := R) decodeElementSection Wadec.decodeElementSection := ⟨Tied.mapErr Tie.tied⟩
instance : Tie (R := R) parseExport Wadec.parseExport := ⟨by unfold parseExport Wadec.parseExport; ties⟩
instance : Tie (R := R) decodeExportSection Wadec.decodeExportSection := ⟨Tied.mapErr Tie.tied⟩
instance : Tie (R := R) decodeFunctionSection Wadec.decodeFunctionSection := ⟨Tied.mapErr Tie.tied⟩
instance : Tie (R := R) decodeTagSection Wadec.decodeTagSection := ⟨Tied.mapErr Tie.tied⟩
instance : Tie (R := R) decodeTypeSection Wadec.decodeTypeSection := ⟨Tied.mapErr Tie.tied⟩
instance : Tie (R := R) decodeMemorySection Wadec.decodeMemorySection := ⟨Tied.mapErr Tie.tied⟩
instance : Tie (R := R) parseGlobal Wadec.parseGlobal := ⟨by unfold parseGlobal Wadec.parseGlobal; ties⟩
instance : Tie (R := R) decodeGlobalSection Wadec.decodeGlobalSection := ⟨Tied.mapErr Tie.tied⟩
instance : Tie (R := R) parseImport Wadec.parseImport := ⟨by unfold parseImport Wadec.parseImport; ties⟩
instance : Tie (R := R) decodeImportSection Wadec.decodeImportSection := ⟨Tied.mapErr Tie.tied⟩
instance : Tie (R := R) decodeTable Wadec.decodeTable := ⟨by unfold decodeTable Wadec.decodeTable; ties⟩
instance : Tie (R := R) decodeTableSection Wadec.decodeTableSection := ⟨Tied.mapErr Tie.tied⟩

end Wadec.Bounded
