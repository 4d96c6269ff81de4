import Verif.Props.AnyReader

/-! C57: the end of the input is asked for once.

A `read` that returns `Ok(0)`, or an error other than `Interrupted`, is the last one `decode_module`
makes.  (A terminal, a pipe or a socket may deliver more bytes, or block, behind an end of file.) -/

namespace Wadec

open LawfulRead Spec

variable {σ : Type} {I : Impl σ} {ρ : List Ev → Nat}

/-- C57: a call of `read` that has returned an end of file or a failure is the last one. -/
theorem c57_last {s s' : σ} {res : Res DecodeModuleError Module} {calls : List Ev}
    (h : Returns I ρ s res calls s') {before after : List Ev} {e : Ev}
    (hc : calls = before ++ e :: after) (he : e.Stops) : after = [] :=
  last_call h hc he

theorem stops_iff {c : List Ev} : Ended c ↔ ∃ e ∈ c, e.Stops := by
  induction c with
  | nil => exact ⟨fun h => h.elim, fun ⟨_, h, _⟩ => by cases h⟩
  | cons e t ih =>
    match e with
    | .data [] => exact ⟨fun _ => ⟨_, List.mem_cons_self .., .inl rfl⟩, fun _ => trivial⟩
    | .data (b :: bs) =>
      refine ih.trans ⟨fun ⟨e, h1, h2⟩ => ⟨e, List.mem_cons_of_mem _ h1, h2⟩, fun ⟨e, h1, h2⟩ => ?_⟩
      rcases List.mem_cons.1 h1 with rfl | h1
      · rcases h2 with h | ⟨x, h, _⟩ <;> cases h
      · exact ⟨e, h1, h2⟩
    | .fail .interrupted =>
      refine ih.trans ⟨fun ⟨e, h1, h2⟩ => ⟨e, List.mem_cons_of_mem _ h1, h2⟩, fun ⟨e, h1, h2⟩ => ?_⟩
      rcases List.mem_cons.1 h1 with rfl | h1
      · rcases h2 with h | ⟨x, h, hx⟩
        · cases h
        · cases h; exact absurd rfl hx
      · exact ⟨e, h1, h2⟩
    | .fail .unexpectedEof =>
      exact ⟨fun _ => ⟨_, List.mem_cons_self .., .inr ⟨_, rfl, by simp⟩⟩, fun _ => trivial⟩
    | .fail (.other y) =>
      exact ⟨fun _ => ⟨_, List.mem_cons_self .., .inr ⟨_, rfl, by simp⟩⟩, fun _ => trivial⟩

/-- C57, success: the calls of `read` are: chunks (and `Interrupted`) that make up the encoding of the
module returned, then one call that finds the end of the input. -/
theorem c57_ok {s s' : σ} {m : Module} {calls : List Ev} (h : Returns I ρ s (.ok m) calls s') :
    ∃ before e, calls = before ++ [e] ∧ (e = .data [] ∨ e = .fail .unexpectedEof) ∧
      (∀ e' ∈ before, ¬ e'.Stops) ∧ BModule (Src.stream before) m := by
  obtain ⟨h1, _, before, e, hc, hb, he⟩ := c56_ok h
  have hn : ∀ e' ∈ before, ¬ e'.Stops := by
    intro e' he' hs'
    obtain ⟨x, y, rfl⟩ := List.append_of_mem he'
    have := c57_last h (before := x) (e := e') (after := y ++ [e]) (by rw [hc]; simp) hs'
    simp at this
  refine ⟨before, e, hc, he, hn, ?_⟩
  have hE : ¬ Ended before := fun hE => by
    obtain ⟨e', h1, h2⟩ := stops_iff.1 hE
    exact hn e' h1 h2
  rw [← ((bytes_append before []).2 hE).2.2, hb]
  exact h1

/-- C57: the number of calls of `read` is at most the number of bytes delivered, plus the number of
times the reader was interrupted, plus one. -/
theorem c57_count {s s' : σ} {res : Res DecodeModuleError Module} {calls : List Ev}
    (h : Returns I ρ s res calls s') :
    calls.length ≤ (Src.stream calls).length + (calls.filter (· = .fail .interrupted)).length + 1 := by
  have key : ∀ c : List Ev, (∀ x e y, c = x ++ e :: y → e.Stops → y = []) →
      c.length ≤ (Src.stream c).length + (c.filter (· = .fail .interrupted)).length + 1 := by
    intro c
    induction c with
    | nil => intro _; simp
    | cons e t ih =>
      intro hc
      have ih := ih (fun x e' y hx hs => hc (e :: x) e' y (by rw [hx]; rfl) hs)
      match e with
      | .data [] => have := hc [] _ t rfl (.inl rfl); subst this; simp
      | .data (b :: bs) => simp [Src.stream] at ih ⊢; omega
      | .fail .interrupted => simp [Src.stream] at ih ⊢; omega
      | .fail .unexpectedEof => have := hc [] _ t rfl (.inr ⟨_, rfl, by simp⟩); subst this; simp
      | .fail (.other z) => have := hc [] _ t rfl (.inr ⟨_, rfl, by simp⟩); subst this; simp
  exact key calls (fun x e y hx hs => c57_last h hx hs)

/-! ### Readers that do not wind down behind their end -/

/-- `I`, allowed `k` more calls, none of them behind an end; the flag tells that this has been
exceeded. -/
def Impl.rationed (I : Impl σ) : Impl (σ × Nat × Bool) where
  read
    | _, (s, 0, _) => (.ok [], (s, 0, true))
    | n, (s, k + 1, f) =>
      match I.read n s with
      | (.ok [], s') => (.ok [], (s', 0, f))
      | (.ok (b :: bs), s') => (.ok (b :: bs), (s', k, f))
      | (.error .interrupted, s') => (.error .interrupted, (s', k, f))
      | (.error e, s') => (.error e, (s', 0, f))
  fits := by
    rintro n ⟨s, k, f⟩ bs s' h
    cases k with
    | zero => cases h; simp
    | succ k =>
      simp only at h
      generalize hi : I.read n s = o at h
      match o, hi, h with
      | (.ok [], s'), _, h => cases h; simp
      | (.ok (b :: bs), s'), hi, h => cases h; exact I.fits hi

theorem rationed_winds : WindsDown I.rationed (fun s => s.2.1) := by
  rintro n ⟨s, k, f⟩ hn
  cases k with
  | zero => simp [Impl.rationed]
  | succ k =>
    simp only [Impl.rationed]
    generalize I.read n s = o
    match o with
    | (.ok [], s') => simp
    | (.ok (b :: bs), s') => simp
    | (.error .interrupted, s') => simp
    | (.error .unexpectedEof, s') => simp
    | (.error (.other x), s') => simp

theorem rationed_watched {b : Nat} : Watched (R := Rec I.rationed ρ b)
    (fun r => r.state.2.2 = false ∧ ∃ bs x, Delivers I r.state.2.1 r.state.1 bs x)
    (fun r => r.state.2.2 = false) where
  ok := fun h => h.1
  data := by
    rintro n ⟨⟨s, k, f⟩, c⟩ d ds r' ⟨hf, bs, x, hd⟩ hn hr
    cases k with
    | zero => exact hd.elim
    | succ k =>
      have hd := hd n hn
      rw [rec_read] at hr
      simp only [Impl.rationed] at hr hd hf
      generalize I.read n s = o at hr hd
      match o, hd, hr with
      | (.ok (b :: bs), s'), ⟨rest, h1, h2⟩, hr => cases hr; exact ⟨hf, rest, x, h2⟩
  int := by
    rintro n ⟨⟨s, k, f⟩, c⟩ r' ⟨hf, bs, x, hd⟩ hn hr
    cases k with
    | zero => exact hd.elim
    | succ k =>
      have hd := hd n hn
      rw [rec_read] at hr
      simp only [Impl.rationed] at hr hd hf
      generalize I.read n s = o at hr hd
      match o, hd, hr with
      | (.ok [], s'), _, hr => cases hr
      | (.ok (b :: bs), s'), _, hr => cases hr
      | (.error .unexpectedEof, s'), _, hr => cases hr
      | (.error (.other x), s'), _, hr => cases hr
      | (.error .interrupted, s'), h2, hr => cases hr; exact ⟨hf, bs, x, h2⟩
  stop := by
    rintro n ⟨⟨s, k, f⟩, c⟩ ⟨hf, bs, x, hd⟩ hn
    cases k with
    | zero => exact hd.elim
    | succ k =>
      rw [rec_read]
      simp only [Impl.rationed] at hf ⊢
      generalize I.read n s = o
      match o with
      | (.ok [], s') => exact hf
      | (.ok (b :: bs), s') => exact hf
      | (.error .interrupted, s') => exact hf
      | (.error .unexpectedEof, s') => exact hf
      | (.error (.other x), s') => exact hf
  reserve := fun h => h

theorem of_rationed {b : Nat} : Sim (fun (r : Rec I.rationed ρ b) (t : Rec I ρ b) =>
    r.state.2.2 = false ∧ r.state.1 = t.state ∧ r.calls = t.calls) where
  read := by
    rintro n ⟨⟨s, k, f⟩, c⟩ res r' ⟨s', c'⟩ hr ⟨h0, h1, h2⟩
    rw [rec_read] at hr
    cases k with
    | zero => cases hr; cases h0
    | succ k =>
      refine ⟨⟨s, c⟩, ?_, ?_⟩
      · refine ⟨?_, rfl, rfl⟩
        simp only [Impl.rationed] at hr
        generalize I.read n s = o at hr
        match o, hr with
        | (.ok [], s'), hr => cases hr; exact h0
        | (.ok (b :: bs), s'), hr => cases hr; exact h0
        | (.error .interrupted, s'), hr => cases hr; exact h0
        | (.error .unexpectedEof, s'), hr => cases hr; exact h0
        | (.error (.other x), s'), hr => cases hr; exact h0
      · rw [rec_read]
        simp only [Impl.rationed] at hr
        simp only
        generalize I.read n s = o at hr
        match o, hr with
        | (.ok [], s'), hr => cases hr; cases h1; cases h2; rfl
        | (.ok (b :: bs), s'), hr => cases hr; cases h1; cases h2; rfl
        | (.error .interrupted, s'), hr => cases hr; cases h1; cases h2; rfl
        | (.error .unexpectedEof, s'), hr => cases hr; cases h1; cases h2; rfl
        | (.error (.other x), s'), hr => cases hr; cases h1; cases h2; rfl
  weight := fun _ => Nat.le_refl _
  reserve := fun h => ⟨_, h, rfl⟩
  room := fun h => by
    simp only [Read.room]
    rw [h.2.2]

/-- C57: on a reader that delivers some bytes and then ends, `decode_module` returns; it does not
matter what the reader would do behind its end (it might deliver more, or answer `Interrupted` for
ever). -/
theorem c57_terminates {k : Nat} {s : σ} {bs : Bytes} {x : End} (hd : Delivers I k s bs x) :
    ∃ res calls s', Returns I ρ s res calls s' := by
  obtain ⟨res, calls, s', b, h, hn⟩ := c56_terminates (I := I.rationed) (ρ := ρ) rationed_winds (s, k, false)
  have hw := module_calm (rationed_watched (I := I) (ρ := ρ) (b := b)) ⟨(s, k, false), []⟩ ⟨rfl, bs, x, hd⟩
  rw [h] at hw
  obtain ⟨⟨s1, c1⟩, ⟨_, h1, h2⟩, h3⟩ := module_sims of_rationed _ _ _ ⟨s'.1, calls⟩ h hn ⟨hw, rfl, rfl⟩
  simp only at h1 h2
  subst h1 h2
  exact ⟨res, calls, s'.1, b, h3, hn⟩

/-- C57: so a reader with a content is decoded as this content says. -/
theorem c57_content {k : Nat} {s : σ} {bs : Bytes} {x : End} (hd : Delivers I k s bs x) :
    (∀ m, (∃ calls s', Returns I ρ s (.ok m) calls s') ↔ BModule bs m ∧ x.toErr = .unexpectedEof) ∧
    (∀ e, (∃ calls s', Returns I ρ s (.err e) calls s') ↔ FModule x bs e) := by
  obtain ⟨res, calls, s', h⟩ := c57_terminates hd
  have hc := c56_content hd h
  refine ⟨fun m => ⟨?_, ?_⟩, fun e => ⟨?_, ?_⟩⟩
  · rintro ⟨c, s2, h2⟩
    exact ((c56_content hd h2).1 m).1 rfl
  · intro hm
    exact ⟨calls, s', (hc.1 m).2 hm ▸ h⟩
  · rintro ⟨c, s2, h2⟩
    exact ((c56_content hd h2).2 e).1 rfl
  · intro hm
    exact ⟨calls, s', (hc.2 e).2 hm ▸ h⟩

/-! ### A reader that must not be asked again -/

/-- Delivers its bytes one at a time, then an end of file; behind that it answers `Interrupted` for
ever. -/
def trap : Impl (Option Bytes) where
  read
    | _, none => (.error .interrupted, none)
    | _, some [] => (.ok [], none)
    | 0, some (b :: c) => (.ok [], some (b :: c))
    | _ + 1, some (b :: c) => (.ok [b], some c)
  fits := by
    rintro n s bs s' h
    match n, s with
    | _, none => cases h
    | _, some [] => cases h; simp
    | 0, some (b :: c) => cases h; simp
    | n + 1, some (b :: c) => cases h; simp

theorem trap_delivers : ∀ c : Bytes, Delivers trap (c.length + 1) (some c) c .eof
  | [] => fun n _ => by
    cases n <;> exact ⟨rfl, rfl⟩
  | b :: c => fun n hn => by
    cases n with
    | zero => omega
    | succ n => exact ⟨c, rfl, trap_delivers c⟩

/-- It does not wind down. -/
example (μ : Option Bytes → Nat) : ¬ WindsDown trap μ := by
  intro h
  have := h 1 none (by omega)
  simp [trap] at this

/-- The sample module is decoded from it. -/
example : ∃ calls s', Returns trap ρ (some (preamble ++ bytesA)) (.ok (assemble secsA)) calls s' := by
  have hA : BModule (preamble ++ bytesA) (assemble secsA) := by
    have := c17_sound modA.choose_spec
    rwa [avail_ofBytes] at this
  exact ((c57_content (trap_delivers (preamble ++ bytesA))).1 _).2 ⟨hA, rfl⟩

/-- A custom section that is cut short: the end of file that its contents run into is the last thing
read, and the error is about the size. -/
example : ∃ calls s', Returns trap (fun c => c.length) (some (preamble ++ [0x00, 0x05, 0x01, 0x61, 0x62]))
    (.err (.SectionSizeMismatch .Custom 5 3)) calls s' :=
  ⟨_, _, 40, rfl, by simp⟩

end Wadec
