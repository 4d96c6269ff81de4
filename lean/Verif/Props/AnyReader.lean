import Verif.Spec.AnyReader
import Verif.Proof.AnyReaderAll
import Verif.Proof.LastRead
import Verif.Proof.NoFuelAll
import Verif.Props.Position
import Verif.Props.Fault

/-! C56: arbitrary implementations of `std::io::Read`.

The other properties describe readers by the bytes they deliver.  Here the reader is an arbitrary state
machine (`Impl`), which need not have a fixed content at all.  What `decode_module` returns is
determined by the results of the calls of `read` it has made. -/

namespace Wadec

open LawfulRead Spec

variable {σ : Type} {I : Impl σ} {ρ : List Ev → Nat}

theorem script_src {b n : Nat} {t t' : Script ρ b} {res : Except IoError (List UInt8)}
    (h : Read.read n t = (res, t')) : Read.read n (⟨t.evs, []⟩ : Src) = (res, ⟨t'.evs, []⟩) := by
  simp only [Read.read] at h
  have hl : (Src.read n ⟨t.evs, []⟩).2.log = [] := by
    unfold Src.read
    simp only
    split
    · rfl
    · rfl
    · split <;> rfl
  show Src.read n ⟨t.evs, []⟩ = _
  generalize Src.read n ⟨t.evs, []⟩ = o at h hl
  obtain ⟨o1, ⟨e, l⟩⟩ := o
  simp only at hl
  subst hl
  cases h
  rfl

/-- A script is a reader with a content. -/
instance {b : Nat} : LawfulRead (Script ρ b) where
  avail s := Src.bytes s.evs
  fin s := Src.ending s.evs
  Adv bs s s' := Adv bs (⟨s.evs, []⟩ : Src) ⟨s'.evs, []⟩
  adv_nil r := adv_nil _
  adv_trans h h' := adv_trans h h'
  adv_avail h := adv_avail h
  adv_fin h := adv_fin h
  fin_ne r := fin_ne (⟨r.evs, []⟩ : Src)
  avail_le r := Nat.le_trans (avail_le (⟨r.evs, []⟩ : Src)) (Nat.le_add_left _ _)
  adv_reserve n r := adv_nil _
  read_data hn h := by
    have := read_data hn (script_src h)
    exact ⟨this.1, this.2.1, Nat.add_lt_add_left this.2.2 _⟩
  read_eof hn h := read_eof hn (script_src h)
  read_int hn h := by
    have := read_int hn (script_src h)
    exact ⟨this.1, Nat.add_lt_add_left this.2 _⟩
  read_err hn he h := read_err hn he (script_src h)

theorem script_of_rec {b : Nat} (T : List Ev) :
    Sim (fun (r : Rec I ρ b) (t : Script ρ b) => T = r.calls ++ t.evs ∧ r.calls = t.past) where
  read := by
    rintro n r res r' t' hr ⟨hT, hp⟩
    rw [rec_read] at hr
    generalize hi : I.read n r.state = o at hr
    obtain ⟨res, s1⟩ := o
    cases hr
    refine ⟨⟨r.calls, Ev.ofResult res :: t'.evs⟩, ⟨by simp [hT], rfl⟩, ?_⟩
    simp only at hp
    cases res with
    | error e =>
      simp only [Read.read, Src.read, Ev.ofResult] at hp ⊢
      rw [hp]
    | ok bs =>
      have := I.fits hi
      simp only [Read.read, Src.read, Ev.ofResult] at hp ⊢
      rw [if_pos this]
      simp only [hp]
  weight := fun _ => Nat.le_add_right _ _
  reserve := fun h => ⟨_, h, rfl⟩
  room := fun h => by
    simp only [Read.room]
    rw [h.2]

theorem script_of_script {b : Nat} :
    Sim (fun (s : Script ρ 0) (t : Script ρ b) => s.evs = t.evs ∧ s.past = t.past) where
  read := by
    rintro n r res r' t' hr ⟨h1, h2⟩
    refine ⟨⟨r.past, r.evs⟩, ⟨rfl, rfl⟩, ?_⟩
    obtain ⟨p', e'⟩ := t'
    simp only [Read.read] at hr ⊢
    cases hr
    simp only at h1 h2
    rw [h1, h2]
  weight := fun h => by
    simp only [Read.weight, h.1]
    omega
  reserve := fun h => ⟨_, h, rfl⟩
  room := fun h => by
    simp only [Read.room]
    rw [h.2]

theorem rec_of_rec {b b' : Nat} (h : b ≤ b') :
    Sim (fun (r : Rec I ρ b) (t : Rec I ρ b') => r.state = t.state ∧ r.calls = t.calls) where
  read := by
    rintro n ⟨s, c⟩ res r' ⟨s', c'⟩ hr ⟨h1, h2⟩
    refine ⟨⟨s, c⟩, ⟨rfl, rfl⟩, ?_⟩
    rw [rec_read] at hr ⊢
    cases hr
    simp only at h1 h2
    simp only [h1, h2]
  weight := fun _ => h
  reserve := fun h => ⟨_, h, rfl⟩
  room := fun h => by
    simp only [Read.room]
    rw [h.2]

/-- C56: what `decode_module` returns depends only on the results of the calls of `read` it has made,
and it makes no more calls than these: on a reader that answers with these results and then goes on in
any way, it returns the same and makes just these calls. -/
theorem c56_calls {s s' : σ} {res : Res DecodeModuleError Module} {calls : List Ev}
    (h : Returns I ρ s res calls s') (later : List Ev) :
    decodeModule (⟨[], calls ++ later⟩ : Script ρ 0) = (res, ⟨calls, later⟩) := by
  obtain ⟨b, h, hn⟩ := h
  obtain ⟨⟨p1, e1⟩, ⟨h1, h1'⟩, h2⟩ := module_sims (script_of_rec (I := I) (ρ := ρ) (b := b) (calls ++ later))
    _ _ _ ⟨calls, later⟩ h hn ⟨rfl, rfl⟩
  simp only [List.nil_append] at h1 h1'
  subst h1 h1'
  generalize hd : decodeModule (⟨[], calls ++ later⟩ : Script ρ 0) = o
  obtain ⟨res2, s2⟩ := o
  have hn2 : res2 ≠ .fuel := by
    have := c30_terminates (⟨[], calls ++ later⟩ : Script ρ 0)
    rwa [hd] at this
  obtain ⟨⟨p2, e2⟩, ⟨h3, h3'⟩, h4⟩ := module_sims (script_of_script (ρ := ρ) (b := b)) _ _ _
    ⟨s2.past, s2.evs⟩ hd hn2 ⟨rfl, rfl⟩
  simp only at h3 h3'
  subst h3 h3'
  rw [h2] at h4
  cases h4
  rfl

/-- C56: the result, the calls made and the final state of the reader are determined by the reader and
its initial state. -/
theorem c56_deterministic {s s1 s2 : σ} {res1 res2 : Res DecodeModuleError Module} {c1 c2 : List Ev}
    (h1 : Returns I ρ s res1 c1 s1) (h2 : Returns I ρ s res2 c2 s2) : res1 = res2 ∧ c1 = c2 ∧ s1 = s2 := by
  obtain ⟨b1, h1, n1⟩ := h1
  obtain ⟨b2, h2, n2⟩ := h2
  obtain ⟨⟨x1, y1⟩, ⟨e1, f1⟩, g1⟩ := module_sims (rec_of_rec (I := I) (Nat.le_max_left b1 b2)) _ _ _
    ⟨s1, c1⟩ h1 n1 ⟨rfl, rfl⟩
  obtain ⟨⟨x2, y2⟩, ⟨e2, f2⟩, g2⟩ := module_sims (rec_of_rec (I := I) (Nat.le_max_right b1 b2)) _ _ _
    ⟨s2, c2⟩ h2 n2 ⟨rfl, rfl⟩
  simp only at e1 f1 e2 f2
  subst e1 f1 e2 f2
  rw [g1] at g2
  cases g2
  exact ⟨rfl, rfl, rfl⟩

/-- C56: no implementation of `Read` makes `decode_module` panic. -/
theorem c56_no_panic {s s' : σ} {res : Res DecodeModuleError Module} {calls : List Ev}
    (h : Returns I ρ s res calls s') : (∃ m, res = .ok m) ∨ (∃ e, res = .err e) := by
  have h1 := c56_calls h []
  rcases c29_total (⟨[], calls ++ []⟩ : Script ρ 0) with ⟨m, r2, h2⟩ | ⟨e, r2, h2⟩ <;> rw [h1] at h2 <;> cases h2
  · exact .inl ⟨m, rfl⟩
  · exact .inr ⟨e, rfl⟩

/-! ### Where the results of the calls end -/

/-- `calls` contains an end of file or a failure. -/
def Ended : List Ev → Prop
  | [] => False
  | .fail .interrupted :: t => Ended t
  | .fail _ :: _ => True
  | .data [] :: _ => True
  | .data (_ :: _) :: t => Ended t

theorem ended_split : ∀ {c : List Ev}, Ended c → ∃ before e after, c = before ++ e :: after ∧
    ¬ Ended before ∧ ((e = .data [] ∧ Src.ending c = .eof) ∨
      ∃ x, e = .fail x ∧ Src.ending c = .fail x)
  | .fail x :: t, h => by
    by_cases hx : x = .interrupted
    · subst hx
      obtain ⟨b, e, a, h1, h2, h3⟩ := ended_split (c := t) h
      exact ⟨.fail .interrupted :: b, e, a, by rw [h1]; rfl, h2, h3⟩
    · refine ⟨[], .fail x, t, rfl, id, .inr ⟨x, rfl, ?_⟩⟩
      cases x <;> first | rfl | exact absurd rfl hx
  | .data [] :: t, _ => ⟨[], .data [], t, rfl, id, .inl ⟨rfl, rfl⟩⟩
  | .data (b :: bs) :: t, h => by
    obtain ⟨b', e, a, h1, h2, h3⟩ := ended_split (c := t) h
    exact ⟨.data (b :: bs) :: b', e, a, by rw [h1]; rfl, h2, h3⟩

theorem bytes_append : ∀ (c later : List Ev), (Ended c → Src.bytes (c ++ later) = Src.bytes c ∧
      Src.ending (c ++ later) = Src.ending c) ∧
    (¬ Ended c → Src.bytes (c ++ later) = Src.bytes c ++ Src.bytes later ∧
      Src.ending (c ++ later) = Src.ending later ∧ Src.bytes c = Src.stream c)
  | [], later => ⟨fun h => h.elim, fun _ => ⟨rfl, rfl, rfl⟩⟩
  | .fail e :: t, later => by
    have := bytes_append t later
    cases e with
    | interrupted => exact this
    | _ => exact ⟨fun _ => ⟨rfl, rfl⟩, fun h => absurd trivial h⟩
  | .data [] :: t, later => ⟨fun _ => ⟨rfl, rfl⟩, fun h => absurd trivial h⟩
  | .data (b :: bs) :: t, later => by
    have := bytes_append t later
    refine ⟨fun h => ?_, fun h => ?_⟩
    · have := this.1 h
      simp [Src.bytes, Src.ending, this.1, this.2]
    · have := this.2 h
      simp [Src.bytes, Src.ending, Src.stream, this.1, this.2.1, this.2.2]

/-- C56, success: the bytes read are an encoding of the module returned, not a byte more has been
taken from the reader, and the last call has returned end of file (or the error `UnexpectedEof`). -/
theorem c56_ok {s s' : σ} {m : Module} {calls : List Ev} (h : Returns I ρ s (.ok m) calls s') :
    BModule (Src.bytes calls) m ∧ Src.stream calls = Src.bytes calls ∧
    ∃ before e, calls = before ++ [e] ∧ Src.bytes before = Src.bytes calls ∧
      (e = .data [] ∨ e = .fail .unexpectedEof) := by
  have h0 := c56_calls h []
  rw [List.append_nil] at h0
  have h1 := c56_calls h [.fail (.other 0)]
  have hE : Ended calls := by
    apply Classical.byContradiction
    intro hE
    have h2 : fin (⟨[], calls ++ [.fail (.other 0)]⟩ : Script ρ 0) = .fail (.other 0) :=
      ((bytes_append calls [.fail (.other 0)]).2 hE).2.1
    exact c32_fail h2 (by decide) _ _ h1
  obtain ⟨before, e, after, hc, hb, he⟩ := ended_split hE
  have hi : Src.ending calls ≠ .fail .interrupted := fin_ne (⟨[], calls⟩ : Script ρ 0)
  have ha : after = [] := by
    refine last_call h hc ?_
    rcases he with ⟨rfl, _⟩ | ⟨x, rfl, hx⟩
    · exact .inl rfl
    · refine .inr ⟨x, rfl, ?_⟩
      rintro rfl
      exact hi hx
  subst ha
  have hbytes : Src.bytes before = Src.bytes calls := by
    rw [hc, ((bytes_append before [e]).2 hb).1]
    rcases he with ⟨rfl, _⟩ | ⟨x, rfl, hx⟩
    · simp [Src.bytes]
    · cases x with
      | interrupted => exact absurd hx hi
      | _ => simp [Src.bytes]
  refine ⟨c17_sound h0, ?_, before, e, hc, hbytes, ?_⟩
  · rw [← hbytes, ((bytes_append before []).2 hb).2.2, hc]
    have hs : ∀ a b : List Ev, Src.stream (a ++ b) = Src.stream a ++ Src.stream b := by
      intro a b
      induction a with
      | nil => rfl
      | cons x t ih => cases x <;> simp [Src.stream, ih]
    rw [hs]
    rcases he with ⟨rfl, _⟩ | ⟨x, rfl, hx⟩ <;> simp [Src.stream]
  · rcases he with ⟨rfl, _⟩ | ⟨x, rfl, hx⟩
    · exact .inl rfl
    · have := (module_sound h0).2
      simp only [fin, hx, End.toErr] at this
      exact .inr (by rw [this])

/-- C56, failure: the error returned describes the first defect of the bytes read; where they end
without an end of file or a failure of the reader, whatever follows. -/
theorem c56_err {s s' : σ} {e : DecodeModuleError} {calls : List Ev} (h : Returns I ρ s (.err e) calls s')
    (later : List Ev) : FModule (Src.ending (calls ++ later)) (Src.bytes (calls ++ later)) e := by
  have h0 := c56_calls h later
  exact (c55_module (⟨[], calls ++ later⟩ : Script ρ 0) e).1 ⟨_, h0⟩

/-! ### Readers with a content -/

theorem Calls.append {s s' s'' : σ} {c c' : List Ev} (h : Calls I s c s') (h' : Calls I s' c' s'') :
    Calls I s (c ++ c') s'' := by
  induction h' with
  | nil => simpa using h
  | snoc _ hn hr ih =>
    rw [← List.append_assoc]
    exact .snoc ih hn hr

/-- C56: the results reported are those of successive calls of `read`, none of them with an empty
buffer. -/
theorem c56_trace {s s' : σ} {res : Res DecodeModuleError Module} {calls : List Ev}
    (h : Returns I ρ s res calls s') : Calls I s calls s' := by
  obtain ⟨b, h, hn⟩ := h
  have := module_us (R := Rec I ρ b)
    (fun a b => ∃ c, b.calls = a.calls ++ c ∧ Calls I a.state c b.state)
    (fun _ => ⟨[], by simp, .nil⟩)
    (by
      rintro a b c ⟨c1, h1, h2⟩ ⟨c2, h3, h4⟩
      exact ⟨c1 ++ c2, by rw [h3, h1, List.append_assoc], h2.append h4⟩)
    (by
      intro n r hn
      rw [rec_read]
      exact ⟨[_], rfl, .snoc (c := []) .nil hn rfl⟩)
    (fun n r => ⟨[], by simp [Read.reserve], .nil⟩) ⟨s, []⟩
  rw [h] at this
  obtain ⟨c, h1, h2⟩ := this
  simp only [List.nil_append] at h1
  rw [h1]
  exact h2

theorem Calls.cases {s s' : σ} {c : List Ev} (h : Calls I s c s') :
    (c = [] ∧ s = s') ∨ ∃ n res s1 t, 0 < n ∧ I.read n s = (res, s1) ∧ c = Ev.ofResult res :: t ∧
      Calls I s1 t s' := by
  induction h with
  | nil => exact .inl ⟨rfl, rfl⟩
  | snoc _ hn hr ih =>
    rcases ih with ⟨rfl, rfl⟩ | ⟨n, res, s1, t, h1, h2, rfl, h4⟩
    · exact .inr ⟨_, _, _, [], hn, hr, rfl, .nil⟩
    · exact .inr ⟨n, res, s1, _, h1, h2, rfl, .snoc h4 hn hr⟩

theorem delivers_end : ∀ {k : Nat} {s : σ} {bs : Bytes} {x : End},
    Delivers I k s bs x → x ≠ .fail .interrupted
  | 0, _, _, _, h => h.elim
  | k + 1, s, bs, x, h => by
    have h := h 1 (by omega)
    generalize I.read 1 s = o at h
    match o, h with
    | (.ok [], _), h => rw [h.2]; simp
    | (.ok (b :: d), _), ⟨rest, h1, h2⟩ => exact delivers_end h2
    | (.error .interrupted, _), h => exact delivers_end h
    | (.error .unexpectedEof, _), h => rw [h.2]; simp
    | (.error (.other y), _), h => rw [h.2]; simp

theorem exists_script (bs : Bytes) (x : End) (hx : x ≠ .fail .interrupted) :
    ∃ l, Src.bytes l = bs ∧ Src.ending l = x := by
  have h : ∃ l, Src.bytes l = [] ∧ Src.ending l = x := by
    match x, hx with
    | .eof, _ => exact ⟨[], rfl, rfl⟩
    | .fail .interrupted, h => exact absurd rfl h
    | .fail .unexpectedEof, _ => exact ⟨[.fail .unexpectedEof], rfl, rfl⟩
    | .fail (.other y), _ => exact ⟨[.fail (.other y)], rfl, rfl⟩
  obtain ⟨l, h1, h2⟩ := h
  cases bs with
  | nil => exact ⟨l, h1, h2⟩
  | cons b d => exact ⟨.data (b :: d) :: l, by simp [Src.bytes, h1], by simp [Src.ending, h2]⟩

/-- The results of the calls are a part of what the reader delivers. -/
theorem delivers_calls : ∀ {k : Nat} {s s' : σ} {bs : Bytes} {x : End} {c : List Ev},
    Delivers I k s bs x → Calls I s c s' → ∃ later, Src.bytes (c ++ later) = bs ∧
      Src.ending (c ++ later) = x
  | 0, _, _, _, _, _, h, _ => h.elim
  | k + 1, s, s', bs, x, c, h, hc => by
    rcases hc.cases with ⟨rfl, rfl⟩ | ⟨n, res, s1, t, hn, hr, rfl, ht⟩
    · exact exists_script bs x (delivers_end h)
    · have h := h n hn
      rw [hr] at h
      match res, h with
      | .ok [], h => exact ⟨[], by simp [Ev.ofResult, Src.bytes, h.1], by simp [Ev.ofResult, Src.ending, h.2]⟩
      | .ok (b :: d), ⟨rest, h1, h2⟩ =>
        obtain ⟨later, h3, h4⟩ := delivers_calls h2 ht
        exact ⟨later, by simp [Ev.ofResult, Src.bytes, h3, h1], by simp [Ev.ofResult, Src.ending, h4]⟩
      | .error .interrupted, h =>
        obtain ⟨later, h3, h4⟩ := delivers_calls h ht
        exact ⟨later, by simp [Ev.ofResult, Src.bytes, h3], by simp [Ev.ofResult, Src.ending, h4]⟩
      | .error .unexpectedEof, h =>
        exact ⟨[], by simp [Ev.ofResult, Src.bytes, h.1], by simp [Ev.ofResult, Src.ending, h.2]⟩
      | .error (.other y), h =>
        exact ⟨[], by simp [Ev.ofResult, Src.bytes, h.1], by simp [Ev.ofResult, Src.ending, h.2]⟩

/-- C56: on an implementation that delivers `bs` and then ends with `x`, `decode_module` returns `Ok(m)`
exactly if `bs` is an encoding of `m` and `x` is an end of file (or `UnexpectedEof`), and `Err(e)`
exactly if `e` describes the first defect; how the
chunks depend on the buffers, and what the implementation would do behind the end, does not matter. -/
theorem c56_content {k : Nat} {s s' : σ} {bs : Bytes} {x : End} {res : Res DecodeModuleError Module}
    {calls : List Ev} (hd : Delivers I k s bs x) (h : Returns I ρ s res calls s') :
    (∀ m, res = .ok m ↔ BModule bs m ∧ x.toErr = .unexpectedEof) ∧
    (∀ e, res = .err e ↔ FModule x bs e) := by
  obtain ⟨later, h1, h2⟩ := delivers_calls hd (c56_trace h)
  have h3 := c56_calls h later
  have ha : avail (⟨[], calls ++ later⟩ : Script ρ 0) = bs := h1
  have hf : fin (⟨[], calls ++ later⟩ : Script ρ 0) = x := h2
  refine ⟨fun m => ⟨?_, ?_⟩, fun e => ⟨?_, ?_⟩⟩
  · rintro rfl
    have := module_sound h3
    rwa [ha, hf] at this
  · rintro ⟨hb, hx⟩
    obtain ⟨r2, h4⟩ := module_complete (r := (⟨[], calls ++ later⟩ : Script ρ 0)) (m := m) (by rwa [ha])
      (by rwa [hf])
    rw [h3] at h4
    cases h4
    rfl
  · rintro rfl
    have := (c55_module (⟨[], calls ++ later⟩ : Script ρ 0) e).1 ⟨_, h3⟩
    rwa [ha, hf] at this
  · intro he
    rw [← ha, ← hf] at he
    obtain ⟨r2, h4⟩ := (c55_module (⟨[], calls ++ later⟩ : Script ρ 0) e).2 he
    rw [h3] at h4
    cases h4
    rfl

/-! ### Termination -/

theorem ranked_of {μ : σ → Nat} (hw : WindsDown I μ) (b : Nat) :
    Ranked (fun r : Rec I ρ b => μ r.state ≤ b) (fun r => μ r.state) where
  enough := fun h => h
  read := by
    intro n r g hn
    have := hw n r.state hn
    rw [rec_read]
    generalize I.read n r.state = o at this
    have hle : μ o.2 ≤ μ r.state := by
      match o, this with
      | (.ok [], _), h => exact h
      | (.ok (_ :: _), _), h => exact Nat.le_of_lt h
      | (.error .interrupted, _), h => exact Nat.le_of_lt h
      | (.error .unexpectedEof, _), h => exact h
      | (.error (.other y), _), h => exact h
    exact ⟨Nat.le_trans hle g, hle⟩
  shrink := by
    intro n r c bs r' g hn hr
    have := hw n r.state hn
    rw [rec_read] at hr
    generalize I.read n r.state = o at this hr
    obtain ⟨o1, o2⟩ := o
    cases hr
    exact this
  int := by
    intro n r r' g hn hr
    have := hw n r.state hn
    rw [rec_read] at hr
    generalize I.read n r.state = o at this hr
    obtain ⟨o1, o2⟩ := o
    cases hr
    exact this
  reserve := fun g => ⟨g, Nat.le_refl _⟩

/-- C56: `decode_module` returns on every implementation of `Read` that does not deliver data or report
`Interrupted` for ever. -/
theorem c56_terminates {μ : σ → Nat} (hw : WindsDown I μ) (s : σ) :
    ∃ res calls s', Returns I ρ s res calls s' := by
  have h := (module_nf (B := μ s + 1) (ranked_of (ρ := ρ) hw (μ s))).2 ⟨s, []⟩ (Nat.le_refl _) (Nat.lt_succ_self _)
  generalize hd : decodeModule (⟨s, []⟩ : Rec I ρ (μ s)) = o at h
  obtain ⟨res, ⟨s', calls⟩⟩ := o
  exact ⟨res, calls, s', _, hd, h⟩

/-- C56: an implementation that reports `Interrupted` for ever keeps `decode_module` from returning:
`Returns` does not hold of runs that do not end. -/
theorem c56_interrupted (h : ∀ n s, (I.read n s).1 = .error .interrupted) {s s' : σ}
    {res : Res DecodeModuleError Module} {calls : List Ev} : ¬ Returns I ρ s res calls s' := by
  intro hr
  have hc := c56_trace hr
  have hi : ∀ later, Src.bytes (calls ++ later) = Src.bytes later ∧
      Src.ending (calls ++ later) = Src.ending later := by
    clear hr
    induction hc with
    | nil => exact fun _ => ⟨rfl, rfl⟩
    | snoc _ hn hr ih =>
      intro later
      have := h _ _ ▸ congrArg Prod.fst hr
      simp only at this
      rw [List.append_assoc, (ih _).1, (ih _).2, ← this]
      exact ⟨rfl, rfl⟩
  have hnil : ∀ m, ¬ BModule [] m := by
    intro m hm
    cases hm
  have hA : BModule (preamble ++ bytesA) (assemble secsA) := by
    have := c17_sound modA.choose_spec
    rwa [avail_ofBytes] at this
  have h1 := c56_calls hr [.data (preamble ++ bytesA)]
  have h2 := c56_calls hr []
  have ha : avail (⟨[], calls ++ [.data (preamble ++ bytesA)]⟩ : Script ρ 0) = preamble ++ bytesA :=
    (hi _).1
  obtain ⟨r3, h3⟩ := c18_complete (r := (⟨[], calls ++ [.data (preamble ++ bytesA)]⟩ : Script ρ 0))
    (m := assemble secsA) (by rw [ha]; exact hA) (hi _).2
  rw [h1] at h3
  cases h3
  have h4 : BModule (Src.bytes (calls ++ [])) (assemble secsA) := c17_sound h2
  rw [(hi []).1] at h4
  exact hnil _ h4

/-! ### An implementation whose chunks depend on the buffer -/

/-- Alternates between `Interrupted` and chunks that fill half of the buffer; goes on with other bytes
behind its first end of file. -/
def fickle : Impl (Bytes × Bytes × Bool) where
  read
    | _, (c, j, true) => (.error .interrupted, (c, j, false))
    | _, ([], j, false) => (.ok [], (j, [], false))
    | n, (b :: c, j, false) =>
      (.ok ((b :: c).take ((n + 1) / 2)), ((b :: c).drop ((n + 1) / 2), j, true))
  fits := by
    rintro n ⟨c, j, f⟩ bs s' h
    cases f with
    | true => cases h
    | false =>
      cases c with
      | nil => cases h; simp
      | cons b c =>
        cases h
        rw [List.length_take]
        omega

theorem half {n : Nat} (hn : 0 < n) (b : UInt8) (c : Bytes) :
    ∃ k, k ≤ c.length ∧ (b :: c).take ((n + 1) / 2) = b :: c.take k ∧
      (b :: c).drop ((n + 1) / 2) = c.drop k := by
  obtain ⟨m, hm⟩ : ∃ m, (n + 1) / 2 = m + 1 := ⟨(n + 1) / 2 - 1, by omega⟩
  rw [hm]
  by_cases h : m ≤ c.length
  · exact ⟨m, h, rfl, rfl⟩
  · exact ⟨c.length, Nat.le_refl _, by simp; rw [List.take_of_length_le (by omega)],
      by simp; omega⟩

theorem fickle_winds : WindsDown fickle (fun s => 2 * s.1.length + 2 * s.2.1.length + s.2.2.toNat) := by
  rintro n ⟨c, j, f⟩ hn
  cases f with
  | true => simp [fickle]
  | false =>
    cases c with
    | nil => simp [fickle]
    | cons b c =>
      obtain ⟨k, hk, h1, h2⟩ := half hn b c
      simp only [fickle, h1, h2]
      simp
      omega

theorem fickle_delivers (j : Bytes) : ∀ (k : Nat) (c : Bytes) (f : Bool),
    2 * c.length + f.toNat < k → Delivers fickle k (c, j, f) c .eof
  | 0, _, _, h => absurd h (by omega)
  | k + 1, c, f, h => by
    intro n hn
    cases f with
    | true => exact fickle_delivers j k c false (by simp at h ⊢; omega)
    | false =>
      cases c with
      | nil => exact ⟨rfl, rfl⟩
      | cons b c =>
        obtain ⟨m, hm, h1, h2⟩ := half hn b c
        simp only [fickle, h1, h2]
        exact ⟨c.drop m, by simp, fickle_delivers j k _ true (by simp at h ⊢; omega)⟩

/-- `fickle`, over the sample module, is decoded to it, whatever bytes would follow behind the end of
file. -/
example (j : Bytes) : ∃ calls s', Returns fickle ρ (preamble ++ bytesA, j, true) (.ok (assemble secsA)) calls s' := by
  obtain ⟨res, calls, s', h⟩ := c56_terminates fickle_winds (preamble ++ bytesA, j, true)
  have hA : BModule (preamble ++ bytesA) (assemble secsA) := by
    have := c17_sound modA.choose_spec
    rwa [avail_ofBytes] at this
  have := ((c56_content (fickle_delivers j _ _ true (Nat.lt_succ_self _)) h).1 (assemble secsA)).2 ⟨hA, rfl⟩
  exact ⟨calls, s', this ▸ h⟩

/-- And on a truncated module it gives the error that describes the defect. -/
example (j : Bytes) : ∃ e calls s', Returns fickle ρ ([0x00, 0x61, 0x73], j, true) (.err e) calls s' ∧
    FModule .eof [0x00, 0x61, 0x73] e := by
  obtain ⟨res, calls, s', h⟩ := c56_terminates fickle_winds ([0x00, 0x61, 0x73], j, true)
  have hc := c56_content (fickle_delivers j _ _ true (Nat.lt_succ_self _)) h
  rcases c56_no_panic h with ⟨m, rfl⟩ | ⟨e, rfl⟩
  · have := ((hc.1 m).1 rfl).1
    cases this
  · exact ⟨e, calls, s', h, (hc.2 e).1 rfl⟩

end Wadec
