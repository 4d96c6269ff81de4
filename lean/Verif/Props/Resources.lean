import Verif.Props.Sample
import Verif.Proof.Size
import Verif.Proof.LogAll

/-! C43–C45: how large results can be, what is asked of the allocator, and how deep the recursion
goes. -/

namespace Wadec

open LawfulRead Spec

/-! ### C43: results are linear in the input, locals excepted -/

section
variable {R : Type} [LawfulRead R]

/-- C43: the decoded module has at most twice as many nodes as the input has bytes; only the expanded
locals are not counted. -/
theorem c43_linear {r r' : R} {m : Module} (h : decodeModule r = (.ok m, r')) :
    nodesModule m ≤ 2 * (avail r).length :=
  nodes_module (c17_sound h)

/-- C43: and each function has fewer than 2^32 locals. -/
theorem c43_locals {r r' : R} {m : Module} (h : decodeModule r = (.ok m, r')) :
    ∀ f ∈ m.funcs, f.locals.length < 2 ^ 32 := c25_module h

end

/-- A function section with one function and a code section with one entry that declares `n` locals
of type `i32` and has an empty body: 24 bytes with the preamble, whatever `n` is. -/
def manyLocals (n : UInt32) : Bytes :=
  preamble ++ ([0x03, 0x02, 0x01, 0x00] ++ ([0x0A, 0x0A, 0x01, 0x08, 0x01] ++ (uEnc 5 n.toNat ++ [0x7F, 0x0B])))

theorem five (n : UInt32) : BU32 (uEnc 5 n.toNat) n :=
  (c07_u32 n _).2 ⟨5, by omega, by omega, by have := n.toNat_lt; omega, rfl⟩

theorem five_length (n : Nat) : (uEnc 5 n).length = 5 := by simp [uEnc]

/-- C43: the expanded locals are not bounded by the input: for every `n` the 24 bytes
`manyLocals n` decode to a module whose only function has `n` locals. -/
theorem c43_amplification (n : UInt32) :
    (manyLocals n).length = 24 ∧
    ∃ m r', decodeModule (Src.ofBytes (manyLocals n)) = (.ok m, r') ∧
      m.funcs = [⟨⟨0⟩, List.replicate n.toNat (.Num .Int32), []⟩] := by
  have hl := five_length n.toNat
  refine ⟨by simp [manyLocals, hl, preamble], ?_⟩
  have hloc : localsOf [(n, .Num .Int32)] = List.replicate n.toNat (.Num .Int32) := by
    simp [localsOf]
  have hcode : BSection ([0x0A, 0x0A, 0x01, 0x08, 0x01] ++ (uEnc 5 n.toNat ++ [0x7F, 0x0B]))
      (10, .code [⟨localsOf [(n, .Num .Int32)], []⟩]) := by
    refine .mk (b1 := [0x0A]) (b2 := [0x01, 0x08, 0x01] ++ (uEnc 5 n.toNat ++ [0x7F, 0x0B]))
      (s := .code [⟨localsOf [(n, .Num .Int32)], []⟩]) ((c07_u32 10 _).2 ⟨1, by decide⟩)
      (by simp [hl]) (.code (single ?_))
    refine .mk (b1 := [0x08]) (b2 := [0x01] ++ (uEnc 5 n.toNat ++ [0x7F, 0x0B])) ?_ ?_
    · have : ([0x01] ++ (uEnc 5 n.toNat ++ [0x7F, 0x0B])).length = (8 : UInt32).toNat := by simp [hl]
      rw [this]
      exact (c07_u32 8 [0x08]).2 ⟨1, by decide⟩
    · have hb : BList BLocals (0x01 :: (uEnc 5 n.toNat ++ [0x7F])) [(n, .Num .Int32)] :=
        single (.mk (b1 := uEnc 5 n.toNat) (b2 := [0x7F]) (five n) .i32)
      have he : BExpr [0x0B] [] := .mk (bs := []) .nil
      have := BFunc.mk hb he (by rw [hloc, List.length_replicate]; exact n.toNat_lt)
      simpa using this
  have hm : BModule (manyLocals n)
      (assemble [(2, .function [⟨0⟩]), (10, .code [⟨localsOf [(n, .Num .Int32)], []⟩])]) := by
    refine .mk (.cons (b := secFunction) bFunction (seq1 hcode)) ⟨?_, rfl, fun n h => ?_, ?_⟩
    · show List.Sublist [SectionKind.Function, .Code] sectionOrder
      decide
    · cases (h : (none : Option UInt32) = some n)
    · rintro ⟨c, hc, i, hi, _⟩
      simp only [codesOf, List.map_cons, List.map_nil, List.flatMap_cons, List.flatMap_nil, List.nil_append,
        List.append_nil, List.mem_singleton] at hc
      subst hc
      cases hi
  obtain ⟨r', h⟩ := (c18_bytes _ _).2 hm
  exact ⟨_, r', h, by simp [assemble, typeIdxsOf, codesOf, mkFunc, hloc]⟩

/-- An element section with one segment of `n` references to function 0, one byte each. -/
def manyRefs (n : Nat) : Bytes :=
  preamble ++ (0x09 :: (uEnc 5 (n + 8) ++ (0x01 :: ([0x00] ++ ([0x0B] ++ (uEnc 5 n ++ List.replicate n 0x00))))))

theorem five' {n : Nat} (h : n < 2 ^ 32) : BU 32 (uEnc 5 n) n := by
  have := five (UInt32.ofNat n)
  unfold BU32 at this
  rwa [UInt32.toNat_ofNat_of_lt' h] at this

theorem zeros : ∀ n : Nat, BSeq BFuncIdx (List.replicate n 0x00) (List.replicate n ⟨0⟩)
  | 0 => .nil
  | n + 1 => .cons (b := [0x00]) ((c07_u32 0 [0x00]).2 ⟨1, by decide⟩) (zeros n)

theorem total_refs (n : Nat) : total nodesExpr (refFuncs (List.replicate n ⟨0⟩)) = 2 * n := by
  induction n with
  | zero => rfl
  | succ n ih =>
    simp only [refFuncs, List.replicate_succ, List.map_cons, total] at ih ⊢
    rw [ih]
    simp only [nodesExpr, nodesInstrs, nodesInstr]
    omega

/-- C43: two is the best constant: for every `n` there are `n + 22` bytes that decode to a module with more than
`2 * n` nodes. -/
theorem c43_tight (n : Nat) (hn : n + 8 < 2 ^ 32) : (manyRefs n).length = n + 22 ∧
    ∃ m r', decodeModule (Src.ofBytes (manyRefs n)) = (.ok m, r') ∧ 2 * n < nodesModule m := by
  have hl := five_length n
  have hl' := five_length (n + 8)
  refine ⟨by simp [manyRefs, hl, hl', preamble]; omega, ?_⟩
  have helem : BElem ([0x00] ++ ([0x0B] ++ (uEnc 5 n ++ List.replicate n 0x00)))
      ⟨⟨false, .Ht .Func⟩, refFuncs (List.replicate n ⟨0⟩), .Active ⟨0⟩ []⟩ :=
    .active0 ((c07_u32 0 [0x00]).2 ⟨1, by decide⟩) (.mk (bs := []) .nil)
      (.mk (by rw [List.length_replicate]; exact five' (by omega)) (zeros n))
  have hsec : BSection (0x09 :: (uEnc 5 (n + 8) ++ (0x01 :: ([0x00] ++ ([0x0B] ++ (uEnc 5 n ++ List.replicate n 0x00))))))
      (UInt32.ofNat (n + 8), .element [⟨⟨false, .Ht .Func⟩, refFuncs (List.replicate n ⟨0⟩), .Active ⟨0⟩ []⟩]) := by
    refine .mk (b1 := uEnc 5 (n + 8)) (s := .element _) ?_ ?_ (.element (single helem))
    · have := five (UInt32.ofNat (n + 8))
      rwa [UInt32.toNat_ofNat_of_lt' hn] at this
    · rw [UInt32.toNat_ofNat_of_lt' hn]
      simp [hl]
      omega
  have hm : BModule (manyRefs n) (assemble [(UInt32.ofNat (n + 8),
      .element [⟨⟨false, .Ht .Func⟩, refFuncs (List.replicate n ⟨0⟩), .Active ⟨0⟩ []⟩])]) := by
    refine .mk (seq1 hsec) ⟨?_, rfl, fun n h => ?_, ?_⟩
    · show List.Sublist [SectionKind.Element] sectionOrder
      decide
    · cases (h : (none : Option UInt32) = some n)
    · rintro ⟨c, hc, _⟩
      simp [codesOf] at hc
  obtain ⟨r', h⟩ := (c18_bytes _ _).2 hm
  refine ⟨_, r', h, ?_⟩
  have ht := total_refs n
  generalize refFuncs (List.replicate n ⟨0⟩) = es at *
  simp only [nodesModule, assemble, elemsOf, List.map_cons, List.map_nil, List.flatMap_cons, List.flatMap_nil,
    List.append_nil, total, nodesElem, ht]
  omega

/-! ### C44: reservations -/

/-- C44: while a module is decoded (successfully or not), at most as many reservations are made as
bytes are taken from the reader, each for fewer than 2^32 elements. -/
theorem c44_bounded {s s' : Src} {res : Res DecodeModuleError Module} (h : decodeModule s = (res, s')) :
    ∃ new, s'.log = s.log ++ new ∧ (∀ n ∈ new, n < 2 ^ 32) ∧
      new.length + Src.volume s'.evs ≤ Src.volume s.evs := by
  obtain ⟨new, h1, h2, h3, _⟩ := module_lg s res s' h
  exact ⟨new, h1, h2, h3⟩

theorem c44_bytes (bs : Bytes) :
    (decodeModule (Src.ofBytes bs)).2.log.length ≤ bs.length ∧
    ∀ n ∈ (decodeModule (Src.ofBytes bs)).2.log, n < 2 ^ 32 := by
  generalize hd : decodeModule (Src.ofBytes bs) = o
  obtain ⟨res, s'⟩ := o
  obtain ⟨new, h1, h2, h3⟩ := c44_bounded hd
  have h0 : (Src.ofBytes bs).log = [] := rfl
  rw [h0, List.nil_append] at h1
  simp only [Src.ofBytes, Src.volume] at h3
  simp only [h1]
  exact ⟨by omega, h2⟩

section
variable {R ε ε' α β : Type} [LawfulRead R] [Audit R]

/-- On inputs that start with `bs`, `d` makes a reservation of `n`. -/
def Asks (d : Dec R ε α) (bs : Bytes) (n : Nat) : Prop :=
  ∀ r rest, avail r = bs ++ rest → ∃ pre post, Audit.log (d r).2 = Audit.log r ++ (pre ++ n :: post)

theorem Lg.mono {d : Dec R ε α} {c c' : Nat} (h : Lg c d c') (r : R) :
    ∃ new, Audit.log (d r).2 = Audit.log r ++ new := by
  obtain ⟨new, h1, _⟩ := h r _ _ rfl
  exact ⟨new, h1⟩

theorem Asks.bind1 {d : Dec R ε α} {f : α → Dec R ε β} {bs : Bytes} {n : Nat} (h : Asks d bs n)
    (hf : ∀ v, ∀ r, ∃ new, Audit.log (f v r).2 = Audit.log r ++ new) : Asks (d >>= f) bs n := by
  intro r rest ha
  obtain ⟨pre, post, h1⟩ := h r rest ha
  simp only [Bind.bind, Dec.bind]
  cases hd : d r with
  | mk res r1 =>
    rw [hd] at h1
    cases res with
    | ok v =>
      obtain ⟨new, h2⟩ := hf v r1
      exact ⟨pre, post ++ new, by simp only [h2]; simp only at h1; simp [h1]⟩
    | _ => exact ⟨pre, post, h1⟩

theorem Asks.mapErr {d : Dec R ε α} {f : ε → ε'} {bs : Bytes} {n : Nat} (h : Asks d bs n) :
    Asks (d.mapErr f) bs n := by
  intro r rest ha
  obtain ⟨pre, post, h1⟩ := h r rest ha
  refine ⟨pre, post, ?_⟩
  simp only [Dec.mapErr]
  cases hd : d r with
  | mk res r1 => rw [hd] at h1; cases res <;> exact h1

theorem Asks.withTake {d : Dec (Take R) ε α} {bs : Bytes} {n k : Nat} (h : Asks d bs n)
    (hk : bs.length ≤ k) : Asks (Dec.withTake k d) bs n := by
  intro r rest ha
  obtain ⟨pre, post, h1⟩ := h ⟨k, r⟩ (rest.take (k - bs.length)) (by
    simp [avail, ha, List.take_append, List.take_of_length_le hk])
  refine ⟨pre, post, ?_⟩
  simp only [Dec.withTake]
  cases hd : d ⟨k, r⟩ with
  | mk res t => rw [hd] at h1; cases res <;> exact h1

theorem Quiet.log {d : Dec R ε α} (h : Quiet d) (r : R) : Audit.log (d r).2 = Audit.log r :=
  h (fun a b => Audit.log b = Audit.log a) (fun _ => rfl) (fun _ _ _ h1 h2 => h2.trans h1)
    (fun n r _ => Audit.read_log n r) r

/-- The length is read, then the reservation is made. -/
theorem Asks.length {f : UInt32 → Dec R ε α} {g : DecodeU32Error → ε} {bs : Bytes} {n : UInt32}
    (hb : BU32 bs n) (hf : ∀ r, ∃ new, Audit.log (f n r).2 = Audit.log r ++ new) :
    ∀ r rest, avail r = bs ++ rest → ∃ post,
      Audit.log (((do let len ← decodeU32.mapErr g; Dec.reserve len.toNat; f len) : Dec R ε α) r).2 =
        Audit.log r ++ n.toNat :: post := by
  intro r rest ha
  obtain ⟨r1, h1, _⟩ := decodeU32_runs (R := R) hb r rest ha
  have h2 := Quiet.log (R := R) u32_q r
  rw [h1] at h2
  simp only at h2
  obtain ⟨new, h3⟩ := hf (Read.reserve n.toNat r1)
  refine ⟨new, ?_⟩
  simp only [Bind.bind, Dec.bind, Dec.mapErr, h1, Dec.reserve, h3, Audit.reserve_log, h2]
  simp

theorem listLoop_mono {σ : Type} {f : σ → Dec R ε (α × σ)}
    (hf : ∀ st r, ∃ new, Audit.log (f st r).2 = Audit.log r ++ new) :
    ∀ n i st items r, ∃ new, Audit.log (decodeListLoop f n i st items r).2 = Audit.log r ++ new
  | 0, _, _, _, _ => ⟨[], by simp [decodeListLoop, Pure.pure, Dec.ok]⟩
  | n + 1, i, st, items, r => by
    obtain ⟨new, h1⟩ := hf st r
    simp only [decodeListLoop, Bind.bind, Dec.bind, Dec.mapErr]
    cases hd : f st r with
    | mk res r1 =>
      rw [hd] at h1
      cases res with
      | ok v =>
        obtain ⟨new2, h2⟩ := listLoop_mono hf n (i + 1) v.2 (items ++ [v.1]) r1
        exact ⟨new ++ new2, by simp only [h2]; simp only at h1; simp [h1]⟩
      | _ => exact ⟨new, h1⟩

theorem list_first {f : Dec R ε α} (hf : ∀ r, ∃ new, Audit.log (f r).2 = Audit.log r ++ new)
    {bs : Bytes} {n : UInt32} (hb : BU32 bs n) {r : R} {rest : Bytes} (ha : avail r = bs ++ rest) :
    ∃ post, Audit.log (decodeList f r).2 = Audit.log r ++ n.toNat :: post := by
  have key := Asks.length (g := DecodeListError.DecodeLength (E := ε))
    (f := fun len => decodeListLoop (fun (_ : Unit) => do let x ← f; pure (x, ())) len.toNat 0 () []) hb
    (fun r => listLoop_mono (by
      intro st r
      obtain ⟨new, h1⟩ := hf r
      refine ⟨new, ?_⟩
      simp only [Bind.bind, Dec.bind]
      cases hd : f r with
      | mk res r1 => rw [hd] at h1; cases res <;> exact h1) _ _ _ _ r) r rest ha
  obtain ⟨post, h⟩ := key
  refine ⟨post, ?_⟩
  simp only [decodeList, decodeListS] at h ⊢
  generalize hx : ((do
      let len ← Dec.mapErr DecodeListError.DecodeLength decodeU32
      Dec.reserve len.toNat
      decodeListLoop (fun (_ : Unit) => do let x ← f; pure (x, ())) len.toNat 0 () [] :
      Dec R (DecodeListError ε) (List α × Unit))) = d at h ⊢
  simp only [Bind.bind, Dec.bind]
  cases hd : d r with
  | mk res r1 => rw [hd] at h; cases res <;> exact h

theorem list_asks {f : Dec R ε α} {c c' : Nat} (hf : Lg c f c') {bs : Bytes} {n : UInt32}
    (hb : BU32 bs n) : Asks (decodeList f) bs n.toNat := by
  intro r rest ha
  obtain ⟨post, h⟩ := list_first (fun r => hf.mono r) hb ha
  exact ⟨[], post, h⟩

end

/-- C44: a list reserves room for as many elements as it announces, before it looks at what
follows: whatever the element decoder does (it may itself make reservations) and whatever follows
the length. -/
theorem c44_list {ε α : Type} {f : Dec Src ε α} (hf : ∀ s, ∃ new, (f s).2.log = s.log ++ new)
    {bs rest : Bytes} {n : UInt32} (hb : BU32 bs n) {s : Src} (ha : avail s = bs ++ rest) :
    ∃ later, (decodeList f s).2.log = s.log ++ n.toNat :: later := list_first hf hb ha

/-- C44: the same for byte vectors. -/
theorem c44_byteVector {bs rest : Bytes} {n : UInt32} (hb : BU32 bs n) {s : Src}
    (ha : avail s = bs ++ rest) : (decodeByteVector s).2.log = s.log ++ [n.toNat] := by
  obtain ⟨r1, h1, _⟩ := decodeU32_runs (R := Src) hb s rest ha
  have h2 := Quiet.log (R := Src) u32_q s
  rw [h1] at h2
  have h3 := Quiet.log (Quiet.mapErr (f := DecodeByteVectorError.ReadElements)
    (Quiet.readExact (n := n.toNat))) (Read.reserve n.toNat r1)
  simp only [decodeByteVector, Bind.bind, Dec.bind, Dec.mapErr, h1, Dec.reserve] at h3 ⊢
  refine Eq.trans h3 (Eq.trans (Audit.reserve_log _ _) ?_)
  rw [h2]; rfl

/-- Sections that hold a list. -/
def isList (k : SectionKind) : Prop := k ≠ .Custom ∧ k ≠ .Start ∧ k ≠ .DataCount

theorem body_asks {R : Type} [LawfulRead R] [Audit R] {k : SectionKind} {st : LoopState} (hk : isList k)
    {bs : Bytes} {n : UInt32} (hb : BU32 bs n) : Asks (decodeSectionBody k st : Dec R _ _) bs n.toNat := by
  have pm : ∀ {ε α : Type} (v : α) (r : R), ∃ new, Audit.log ((pure v : Dec R ε α) r).2 = Audit.log r ++ new :=
    fun v r => ⟨[], by simp [Pure.pure, Dec.ok]⟩
  cases k with
  | Custom => exact absurd rfl hk.1
  | Start => exact absurd rfl hk.2.1
  | DataCount => exact absurd rfl hk.2.2
  | «Type» => exact Asks.bind1 (Asks.mapErr (Asks.mapErr (list_asks RecType.lg hb))) fun v r => pm _ r
  | Import => exact Asks.bind1 (Asks.mapErr (Asks.mapErr (list_asks import_lg hb))) fun v r => pm _ r
  | Function => exact Asks.bind1 (Asks.mapErr (Asks.mapErr (list_asks (TypeIdx.q.lg (c := 0)) hb))) fun v r => pm _ r
  | Table => exact Asks.bind1 (Asks.mapErr (Asks.mapErr (list_asks table_lg hb))) fun v r => pm _ r
  | Memory => exact Asks.bind1 (Asks.mapErr (Asks.mapErr (list_asks (memType_q.lg (c := 0)) hb))) fun v r => pm _ r
  | Tag => exact Asks.bind1 (Asks.mapErr (Asks.mapErr (list_asks (TagType.q.lg (c := 0)) hb))) fun v r => pm _ r
  | Global => exact Asks.bind1 (Asks.mapErr (Asks.mapErr (list_asks global_lg hb))) fun v r => pm _ r
  | Export => exact Asks.bind1 (Asks.mapErr (Asks.mapErr (list_asks export_lg hb))) fun v r => pm _ r
  | Element => exact Asks.bind1 (Asks.mapErr (Asks.mapErr (list_asks elem_lg hb))) fun v r => pm _ r
  | Code =>
    refine Asks.bind1 (Asks.mapErr (Asks.mapErr (list_asks code_lg hb))) fun codes => ?_
    exact fun r => Lg.mono (Lg.ite (c := 0) (c' := 0) Quiet.err.lg (Lg.bind (fillFuncs_q _ _ _ _).lg fun _ => Quiet.pure.lg)) r
  | Data =>
    refine Asks.bind1 (Asks.mapErr (Asks.mapErr (list_asks data_lg hb))) fun datas => ?_
    intro r
    refine Lg.mono (c := 0) (c' := 0) ?_ r
    split
    · exact Lg.ite Quiet.err.lg Quiet.pure.lg
    · exact Quiet.pure.lg

/-- C44: wherever in a module a section begins that holds a list, room for the number of elements it
announces is reserved, whatever follows. -/
theorem c44_section {s : Src} {secs : List Section} {k : SectionKind} {size n : UInt32} {bs rest : Bytes}
    (hat : AtSection (avail s) secs k size (bs ++ rest)) (hm : MayFollow secs k) (hk : isList k)
    (hb : BU32 bs n) (hlen : bs.length ≤ size.toNat) : n.toNat ∈ (decodeModule s).2.log := by
  generalize ha : avail s = inp at hat
  cases hat with
  | @mk b0 b1 _ secs _ _ h0 hacc h1 =>
    obtain ⟨r1, k1, a1, av1, hk1, e1⟩ := module_steps h0 hacc ha
    obtain ⟨r2, a2, e2⟩ := header_cons (r := r1) av1
    have av2 : avail r2 = b1 ++ (bs ++ rest) := by
      have := adv_avail a2
      rw [av1] at this
      simpa using this.symm
    obtain ⟨r3, e3, a3⟩ := headerRest_runs (R := Src) (k := k) h1 r2 _ av2
    have av3 : avail r3 = bs ++ rest := by
      have := adv_avail a3
      rw [av2] at this
      simpa using this.symm
    have hv : Module.validateSectionKindExpected (R := Src) (stateOf secs).module k = pure () := by
      rcases validate_kind (R := Src) k (sorted_iff.2 hacc.order) with ⟨_, hv⟩ | ⟨hn, _⟩
      · exact hv
      · obtain ⟨x, rfl⟩ := exists_kind k
        exact absurd (mayFollow_iff.1 hm) (hn x rfl)
    have hs : Asks (R := Src) (decodeSection ⟨k, size⟩ (stateOf secs)) bs n.toNat := by
      rw [section_eq ⟨k, size⟩ _ hv]
      refine Asks.bind1 (Asks.withTake (body_asks hk hb) hlen) fun v r => ?_
      exact Lg.mono (c := 0) (c' := 0) (Lg.ite Quiet.err.lg Quiet.pure.lg) r
    match k1, hk1 with
    | k1 + 1, _ =>
      have hl : Asks (R := Src) (do
          let st ← decodeSection ⟨k, size⟩ (stateOf secs)
          let st ← sectionLoop k1 st
          finalChecks st) bs n.toNat := by
        refine Asks.bind1 hs fun v r => ?_
        exact Lg.mono (c := 0) (c' := 0) (Lg.bind (loop_lg _ _) fun _ => finalChecks_q.lg) r
      obtain ⟨pre, post, h⟩ := hl r3 rest av3
      have hd : decodeModule s = (do
          let st ← decodeSection ⟨k, size⟩ (stateOf secs)
          let st ← sectionLoop k1 st
          finalChecks st : Dec Src _ _) r3 := by
        rw [e1, sectionLoop]
        simp only [Bind.bind, Dec.bind, Dec.mapErr, e2, e3]
        cases decodeSection ⟨k, size⟩ (stateOf secs) r3 with
        | mk res r4 => cases res <;> rfl
      rw [hd]
      have h : (_ : List Nat) = _ := h
      rw [show ((do
          let st ← decodeSection ⟨k, size⟩ (stateOf secs)
          let st ← sectionLoop k1 st
          finalChecks st : Dec Src _ _) r3).2.log = _ from h]
      simp

/-- C44: so the total is not bounded by the input: for every `n` these 15 bytes reserve room for
`n` recursive types. -/
theorem c44_unbounded (n : UInt32) :
    (preamble ++ ([0x01, 0x05] ++ uEnc 5 n.toNat)).length = 15 ∧
    n.toNat ∈ (decodeModule (Src.ofBytes (preamble ++ ([0x01, 0x05] ++ uEnc 5 n.toNat)))).2.log := by
  have hl := five_length n.toNat
  refine ⟨by simp [hl, preamble], ?_⟩
  refine c44_section (secs := []) (k := .Type) (size := 5) (bs := uEnc 5 n.toNat) (rest := []) ?_ ?_
    ⟨by simp, by simp, by simp⟩ (five n) (by simp [hl])
  · rw [avail_ofBytes]
    have := AtSection.mk (bs := []) (b1 := [0x05]) (rest := uEnc 5 n.toNat ++ []) (secs := []) (k := .Type) (size := 5)
      .nil Acceptable.nil ((c07_u32 5 _).2 ⟨1, by decide⟩)
    simpa [sectionId] using this
  · show List.Sublist [SectionKind.Type] sectionOrder
    decide

/-! ### C45: nesting -/

section
variable {R : Type} [LawfulRead R]

/-- C45: three bytes of input for every level of nesting. -/
theorem c45_bounded {r r' : R} {m : Module} (h : decodeModule r = (.ok m, r')) :
    3 * depthModule m ≤ (avail r).length :=
  depth_module (c17_sound h)

theorem c45_expr {r r' : R} {e : Expr} {b : Bool} (h : decodeExpr r = (.ok (e, b), r')) :
    3 * depthInstrs e < (avail r).length := by
  obtain ⟨bs, hb, ha, _⟩ := c15_expr.1 _ _ _ h
  have := depth_expr hb.1
  rw [ha, List.length_append]
  simp only at this
  omega

end

/-- `n` blocks without parameters and results, one inside the other, the innermost one empty. -/
def nest : Nat → List Instr
  | 0 => []
  | n + 1 => [.Block .Empty (nest n)]

/-- `n` times the bytes 02 40 (`block`, empty block type). -/
def opens (n : Nat) : Bytes := (List.replicate n [0x02, 0x40]).flatten

theorem nest_depth (n : Nat) : depthInstrs (nest n) = n := by
  induction n with
  | zero => rfl
  | succ n ih => simp [nest, depthInstrs, depthInstr, ih]; omega

theorem nest_bytes : ∀ n, BInstrs (opens n ++ List.replicate n 0x0B) (nest n)
  | 0 => .nil
  | n + 1 => by
    have h := BInstrs.cons (bs := []) (BInstr.block (b1 := [0x40]) .empty (nest_bytes n)) .nil
    have e : opens (n + 1) ++ List.replicate (n + 1) 0x0B =
        (0x02 :: ([0x40] ++ ((opens n ++ List.replicate n 0x0B) ++ [0x0B]))) ++ [] := by
      simp [opens, List.replicate_succ, List.replicate_succ' (n := n) (a := (0x0B : UInt8))]
      exact List.replicate_succ'.symm ▸ rfl
    rw [e]
    exact h

theorem nest_noData : ∀ n, ¬ ∃ i ∈ nest n, UsesData i
  | 0, ⟨_, h, _⟩ => by cases h
  | n + 1, ⟨i, h, hu⟩ => by
    simp only [nest, List.mem_singleton] at h
    subst h
    cases hu with
    | block h1 h2 => exact nest_noData n ⟨_, h1, h2⟩

theorem nest_expr (n : Nat) : BExpr (opens n ++ List.replicate (n + 1) 0x0B) (nest n) := by
  rw [List.replicate_succ', ← List.append_assoc]
  exact .mk (nest_bytes n)

/-- C45: for every `n`, blocks nested `n` deep are decoded. -/
theorem c45_deep_expr {R : Type} [LawfulRead R] (n : Nat) (r : R) (rest : Bytes)
    (ha : avail r = opens n ++ List.replicate (n + 1) 0x0B ++ rest) :
    depthInstrs (nest n) = n ∧
    ∃ r', decodeExpr r = (.ok (nest n, false), r') ∧ avail r' = rest := by
  refine ⟨nest_depth n, ?_⟩
  obtain ⟨r', h, h', _⟩ := c15_expr.2 r _ rest (nest n, false)
    ⟨nest_expr n, by simpa using fun i hi hu => nest_noData n ⟨i, hi, hu⟩⟩ ha
  exact ⟨r', h, h'⟩

/-- A module of `3 n + 26` bytes whose only function consists of `n` nested blocks. -/
def deepModule (n : Nat) : Bytes :=
  preamble ++ ([0x03, 0x02, 0x01, 0x00] ++ (0x0A :: (uEnc 5 (3 * n + 8) ++ (0x01 :: (uEnc 5 (3 * n + 2) ++
    (0x00 :: (opens n ++ List.replicate (n + 1) 0x0B)))))))

theorem opens_length (n : Nat) : (opens n).length = 2 * n := by
  induction n with
  | zero => rfl
  | succ n ih => simp only [opens, List.replicate_succ, List.flatten_cons, List.length_append] at ih ⊢; simp [ih]; omega

theorem deepest_single (e : Expr) : deepest [e] = depthInstrs e := by simp [deepest]

/-- C45: for every `n` (as far as the format itself, which limits a section to 2^32 - 1 bytes, allows
it) a module nested `n` deep is accepted; no other limit exists. -/
theorem c45_deep_module (n : Nat) (hn : 3 * n + 8 < 2 ^ 32) :
    (deepModule n).length = 3 * n + 26 ∧
    ∃ m r', decodeModule (Src.ofBytes (deepModule n)) = (.ok m, r') ∧ depthModule m = n := by
  have hl := five_length
  have ho := opens_length n
  refine ⟨by simp [deepModule, hl, ho, preamble]; omega, ?_⟩
  have h8 : (UInt32.ofNat (3 * n + 8)).toNat = 3 * n + 8 := by simp; omega
  have h2 : (UInt32.ofNat (3 * n + 2)).toNat = 3 * n + 2 := by simp; omega
  have hfun : BFunc (0x00 :: (opens n ++ List.replicate (n + 1) 0x0B)) ⟨[], nest n⟩ :=
    .mk (b1 := [0x00]) (runs := []) emptyList (nest_expr n) (by simp [localsOf])
  have hflen : (0x00 :: (opens n ++ List.replicate (n + 1) 0x0B)).length = 3 * n + 2 := by
    simp [ho]; omega
  have hcode : BSection (0x0A :: (uEnc 5 (3 * n + 8) ++ (0x01 :: (uEnc 5 (3 * n + 2) ++
      (0x00 :: (opens n ++ List.replicate (n + 1) 0x0B)))))) (UInt32.ofNat (3 * n + 8), .code [⟨[], nest n⟩]) := by
    refine .mk (s := .code [⟨[], nest n⟩]) ?_ ?_ (.code (single (.mk ?_ hfun)))
    · have := five (UInt32.ofNat (3 * n + 8)); rwa [h8] at this
    · simp only [h8, List.length_cons, List.length_append, hl, ho, List.length_replicate]; omega
    · have := five (UInt32.ofNat (3 * n + 2))
      rw [hflen]
      unfold BU32 at this
      rwa [h2] at this
  have hm : BModule (deepModule n)
      (assemble [(2, .function [⟨0⟩]), (UInt32.ofNat (3 * n + 8), .code [⟨[], nest n⟩])]) := by
    refine .mk (.cons (b := secFunction) bFunction (seq1 hcode)) ⟨?_, rfl, fun n h => ?_, ?_⟩
    · show List.Sublist [SectionKind.Function, .Code] sectionOrder
      decide
    · cases (h : (none : Option UInt32) = some n)
    · rintro ⟨c, hc, hu⟩
      simp only [codesOf, List.map_cons, List.map_nil, List.flatMap_cons, List.flatMap_nil, List.nil_append,
        List.append_nil, List.mem_singleton] at hc
      subst hc
      exact absurd hu (nest_noData n)
  obtain ⟨r', h⟩ := (c18_bytes _ _).2 hm
  refine ⟨_, r', h, ?_⟩
  simp [depthModule, assemble, typeIdxsOf, codesOf, mkFunc, globalsOf, tablesOf, elemsOf, datasOf, deepest,
    nest_depth]

theorem bind_fuel1 {R ε α β : Type} {d : Dec R ε α} {f : α → Dec R ε β} {r : R} (h : (d r).1 = .fuel) :
    ((d >>= f) r).1 = .fuel := by
  simp only [Bind.bind, Dec.bind]
  cases hd : d r with
  | mk res r1 =>
    rw [hd] at h
    simp only at h
    subst h
    rfl

theorem bind_fuel2 {R ε α β : Type} {d : Dec R ε α} {f : α → Dec R ε β} {r r1 : R} {v : α}
    (h : d r = (.ok v, r1)) (h' : (f v r1).1 = .fuel) : ((d >>= f) r).1 = .fuel := by
  simp only [Bind.bind, Dec.bind, h, h']

/-- C45: the nesting of the input is the nesting of the calls of `Instruction::parse` (the argument
of `parse` is the number of nested calls it is allowed): `n` nested calls are not enough once the
input starts with `n` blocks, that is, with 2 n particular bytes. -/
theorem c45_recursion {R : Type} [LawfulRead R] : ∀ (n : Nat) (r : R) (rest : Bytes),
    avail r = opens n ++ rest → (parse n r).1 = .fuel
  | 0, _, _, _ => rfl
  | n + 1, r, rest, ha => by
    have e : opens (n + 1) ++ rest = [0x02] ++ ([0x40] ++ (opens n ++ rest)) := by
      simp [opens, List.replicate_succ]
    rw [e] at ha
    obtain ⟨r1, h1, a1⟩ := Runs.readExact (R := R) (bs := [0x02]) (n := 1) rfl r _ ha
    have av1 : avail r1 = [0x40] ++ (opens n ++ rest) := by
      have := adv_avail a1
      rw [ha] at this
      simpa using this.symm
    obtain ⟨r2, h2, a2⟩ := BlockType.runs (R := R) .empty r1 _ av1
    have av2 : avail r2 = opens n ++ rest := by
      have := adv_avail a2
      rw [av1] at this
      simpa using this.symm
    have ih := c45_recursion n r2 rest av2
    have hs : (parseSeq (parse n) n false [] r2).1 = .fuel := by
      match n, ih with
      | 0, _ => rfl
      | n + 1, ih =>
        simp only [parseSeq, Bind.bind, Dec.bind]
        cases hp : parse (n + 1) r2 with
        | mk res r3 =>
          rw [hp] at ih
          simp only at ih
          rw [ih]
    refine bind_fuel2 (d := Dec.mapErr ParseError.ReadOpcode (readExact 1)) (v := [0x02]) (r1 := r1)
      (by simp only [Dec.mapErr, h1]) ?_
    refine Eq.trans (b := ((do
        let bt ← BlockType.decode.mapErr (fun e => ParseError.Control (.BlockType e))
        let (in1, _) ← parseSeq (parse n) n false []
        pure (.Instruction (.Block bt in1)) : Dec R ParseError ParseResult) r1).1) rfl ?_
    refine bind_fuel2 (v := .Empty) (r1 := r2) (by simp only [Dec.mapErr, h2]) ?_
    exact bind_fuel1 hs

/-! ### Examples -/

-- C43: the sample module: 48 nodes in 71 bytes
example : nodesModule (assemble secsA) = 48 ∧ (preamble ++ bytesA).length = 71 := by decide
example (r' : Src) (_ : decodeModule (Src.ofBytes (preamble ++ bytesA)) = (.ok (assemble secsA), r')) :
    depthModule (assemble secsA) = 1 := by decide
-- C43: 24 bytes, four billion locals
example : ∃ m r', decodeModule (Src.ofBytes (manyLocals 4294967295)) = (.ok m, r') ∧
    ∃ f, m.funcs = [f] ∧ f.locals.length = 4294967295 := by
  obtain ⟨_, m, r', h, hf⟩ := c43_amplification 4294967295
  refine ⟨m, r', h, _, hf, ?_⟩
  simp only [List.length_replicate]
  rfl
-- C44: the reservations made for the sample module
example : (decodeModule (Src.ofBytes (preamble ++ bytesA))).2.log =
    [1, 1, 0, 0, 1, 1, 1, 1, 1, 1, 1, 1] := by decide +kernel
-- C44: an input of 15 bytes that reserves room for 4294967295 types and is then rejected
example : (decodeModule (Src.ofBytes (preamble ++ [0x01, 0x05, 0xFF, 0xFF, 0xFF, 0xFF, 0x0F]))).2.log =
    [4294967295] := by rfl
-- C44: the same at the second list of a module, behind other sections
example : (4294967295 : UInt32).toNat ∈ (decodeModule (Src.ofBytes (preamble ++ ([] ++
    (0x03 :: ([0x05] ++ ([0xFF, 0xFF, 0xFF, 0xFF, 0x0F] ++ []))))))).2.log := by
  refine c44_section (secs := []) (k := .Function) (size := 5) (bs := [0xFF, 0xFF, 0xFF, 0xFF, 0x0F])
    (rest := []) ?_ (show List.Sublist [SectionKind.Function] sectionOrder by decide) ⟨by simp, by simp, by simp⟩ ((c07_u32 4294967295 _).2 ⟨5, by decide⟩)
    (by decide)
  rw [avail_ofBytes]
  exact AtSection.mk (bs := []) (secs := []) (k := .Function) .nil Acceptable.nil
    ((c07_u32 5 _).2 ⟨1, by decide⟩)
-- C45: a hundred thousand nested blocks in about 300 kB
example : ∃ m r', decodeModule (Src.ofBytes (deepModule 100000)) = (.ok m, r') ∧ depthModule m = 100000 :=
  (c45_deep_module 100000 (by decide)).2
example : deepModule 2 = preamble ++ [0x03, 0x02, 0x01, 0x00, 0x0A, 0x8E, 0x80, 0x80, 0x80, 0x00, 0x01,
    0x88, 0x80, 0x80, 0x80, 0x00, 0x00, 0x02, 0x40, 0x02, 0x40, 0x0B, 0x0B, 0x0B] := by decide
example : nest 2 = [.Block .Empty [.Block .Empty []]] := rfl

end Wadec
