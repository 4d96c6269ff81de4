import Verif.Source.Cli
import Verif.Source.AgreeModule
import Verif.Props.Cli

/-! The translation of wadec-cli/src/main.rs does what Model/Cli.lean says, and what it does when writing to
stdout or stderr fails. -/

namespace Wadec.Source

open LawfulRead Spec

variable {α β : Type}

/-! ### Without faults -/

theorem proc_bind (d : Proc α) (f : α → Proc β) (s : Streams) :
    (d >>= f) s = match d s with
      | (.ret a, s') => f a s'
      | (.exit n, s') => (.exit n, s')
      | (.panic, s') => (.panic, s')
      | (.fuel, s') => (.fuel, s') := rfl

theorem bind_ret {d : Proc α} {f : α → Proc β} {s s' : Streams} {a : α} (h : d s = (.ret a, s')) :
    (d >>= f) s = f a s' := by rw [proc_bind, h]

theorem proc_pure (a : α) (s : Streams) : (pure a : Proc α) s = (.ret a, s) := rfl

theorem eprintln_run (x o e : String) : eprintln x ⟨o, e, []⟩ = (.ret (), ⟨o, e ++ (x ++ "\n"), []⟩) := rfl

theorem println_run (x o e : String) : println x ⟨o, e, []⟩ = (.ret (), ⟨o ++ (x ++ "\n"), e, []⟩) := rfl

/-- the errors behind an error -/
def behind : List String → List DynError
  | [] => []
  | x :: xs => .mk x "" (sourcesOf xs) :: behind xs

theorem behind_length (xs : List String) : (behind xs).length = xs.length := by
  induction xs with
  | nil => rfl
  | cons x xs ih => simp [behind, ih]

theorem collect_run (xs : List String) : ∀ (fuel : Nat) (acc : List DynError) (s : Streams), xs.length < fuel →
    (forIn (Fuel.mk fuel) (acc, sourcesOf xs) (fun _ r =>
      match r.2 with
      | some cause => (pure (ForInStep.yield (r.1 ++ [cause], cause.source)) : Proc _)
      | _ => pure (ForInStep.done (r.1, r.2)))) s = (.ret (acc ++ behind xs, none), s) := by
  induction xs with
  | nil =>
    intro fuel acc s h
    cases fuel with
    | zero => simp at h
    | succ n => simp [behind]; rfl
  | cons x xs ih =>
    intro fuel acc s h
    cases fuel with
    | zero => simp at h
    | succ n =>
      have := ih n (acc ++ [.mk x "" (sourcesOf xs)]) s (by simp at h; omega)
      rw [behind, List.append_cons]
      exact this

theorem lines_run (t : CliText) (xs : List String) : ∀ (i : Nat) (o e : String),
    (forIn (((behind xs).zipIdx i).map fun p => (p.2, p.1)) PUnit.unit (fun p _ => do
      eprintln ("    " ++ display t p.1 ++ ": " ++ display t p.2)
      pure (.yield PUnit.unit)) : Proc PUnit) ⟨o, e, []⟩ = (.ret PUnit.unit, ⟨o, e ++ causeLines xs i, []⟩) := by
  induction xs with
  | nil => intro i o e; simp [behind, causeLines]; rfl
  | cons x xs ih =>
    intro i o e
    simp only [behind, List.zipIdx_cons, List.map_cons, List.forIn_cons]
    rw [proc_bind, proc_bind, eprintln_run]
    dsimp only
    rw [proc_pure]
    dsimp only
    rw [ih]
    simp [causeLines, display, DynError.text, String.append_assoc]

section
variable {R : Type}

theorem abort_run {T : Type} (t : CliText) (cli : Cli R) (err : String) (causes : List String) (debug : String)
    {fuel : Nat} (hf : causes.length < fuel) :
    (abort t fuel cli (ofChain debug (err :: causes)) : Proc T) ⟨"", "", []⟩ =
      (.exit 1, ⟨"", (Wadec.abort cli.verbose (err :: causes) debug).stderr, []⟩) := by
  unfold abort
  dsimp only
  rw [bind_ret (eprintln_run _ _ _)]
  refine (bind_ret (collect_run causes fuel [] ⟨"", "" ++ ("ERROR: " ++ err ++ "\n"), []⟩ hf)).trans ?_
  dsimp only [List.nil_append]
  cases causes with
  | nil =>
    cases hv : cli.verbose <;>
      simp [behind, proc_bind, exit, eprintln_run, Wadec.abort, pretty, ofChain, DynError.debug]
  | cons c cs =>
    have hl := fun o e => lines_run t (c :: cs) 0 o e
    cases hv : cli.verbose <;>
    · rw [if_pos (by simp [behind]), bind_ret (eprintln_run _ _ _)]
      refine (bind_ret (hl _ _)).trans ?_
      simp [proc_bind, exit, eprintln_run, Wadec.abort, pretty, ofChain, DynError.debug, String.append_assoc]
      rw [show "\n\nCaused by:\n" = "\n" ++ "\nCaused by:\n" from by decide, String.append_assoc]

end
section
variable {R : Type} [LawfulRead R]

/-- If nothing goes wrong with stdout and stderr, the process does what the model says. -/
theorem main_eq (t : CliText) (hio : ∀ x, t.io x ≠ []) (verbose : Bool) (input : Except IoError R) :
    ∃ enough, ∀ fuel, enough ≤ fuel →
      outcome (main t fuel ⟨⟨input⟩, verbose⟩) [] = cliMain t verbose input := by
  cases input with
  | error x =>
    cases hx : t.io x with
    | nil => exact absurd hx (hio x)
    | cons err causes =>
      refine ⟨causes.length + 1, fun fuel hf => ?_⟩
      have := abort_run (R := R) (T := R) t ⟨⟨.error x⟩, verbose⟩ err causes (t.debugIo x) hf
      unfold outcome main
      dsimp only
      rw [proc_bind]
      simp only [unwrap_or_else, proc_bind, proc_pure]
      simp only [dyn, hx]
      rw [this]
      simp only [cliMain, hx]
      rfl
  | ok r =>
    rcases c29_total r with ⟨m, r', h⟩ | ⟨e, r', h⟩
    · refine ⟨0, fun fuel _ => ?_⟩
      unfold outcome main
      simp only [unwrap_or_else, proc_bind, proc_pure, decode, decode_module_eq, h, cliMain]
      cases verbose <;> simp [pretty, proc_pure, println_run]
    · have hc := LawfulText.ne_nil e t.io hio
      cases hx : ErrText.chain t.io e with
      | nil => exact absurd hx hc
      | cons err causes =>
        refine ⟨causes.length + 1, fun fuel hf => ?_⟩
        have := abort_run (T := Module) t ⟨⟨.ok r⟩, verbose⟩ err causes (t.debugErr e) hf
        unfold outcome main
        dsimp only
        simp only [unwrap_or_else, proc_bind, proc_pure, decode, decode_module_eq, h, cliMain]
        simp only [dyn, hx]
        rw [this]
        rfl

end

/-! ### With faults -/

/-- Whatever faults there are, a computation either takes the same course as without them, or panics having
written a part of what it would have written. -/
def Prefixed (d : Proc α) : Prop := ∀ s : Streams,
  (s.stdout.toList <+: (d { s with faults := [] }).2.stdout.toList ∧
    s.stderr.toList <+: (d { s with faults := [] }).2.stderr.toList) ∧
  (((d s).1 = (d { s with faults := [] }).1 ∧ (d s).2.stdout = (d { s with faults := [] }).2.stdout ∧
      (d s).2.stderr = (d { s with faults := [] }).2.stderr) ∨
    ((d s).1 = .panic ∧ (d s).2.stdout.toList <+: (d { s with faults := [] }).2.stdout.toList ∧
      (d s).2.stderr.toList <+: (d { s with faults := [] }).2.stderr.toList)) ∧
  (d { s with faults := [] }).2.faults = []

theorem Prefixed.pure (a : α) : Prefixed (pure a : Proc α) := fun _ =>
  ⟨⟨List.prefix_refl _, List.prefix_refl _⟩, .inl ⟨rfl, rfl, rfl⟩, rfl⟩

theorem Prefixed.exit (n : Nat) : Prefixed (exit n : Proc α) := fun _ =>
  ⟨⟨List.prefix_refl _, List.prefix_refl _⟩, .inl ⟨rfl, rfl, rfl⟩, rfl⟩

theorem Prefixed.fuel : Prefixed ((fun s => (.fuel, s)) : Proc α) := fun _ =>
  ⟨⟨List.prefix_refl _, List.prefix_refl _⟩, .inl ⟨rfl, rfl, rfl⟩, rfl⟩

theorem Prefixed.eprintln (x : String) : Prefixed (eprintln x) := by
  rintro ⟨o, e, f⟩
  refine ⟨⟨List.prefix_refl _, ?_⟩, ?_, rfl⟩
  · simp [Source.eprintln]
  · match f with
    | [] => exact .inl ⟨rfl, rfl, rfl⟩
    | none :: f => exact .inl ⟨rfl, rfl, rfl⟩
    | some k :: f =>
      refine .inr ⟨rfl, List.prefix_refl _, ?_⟩
      simp only [Source.eprintln, String.toList_append, String.toList_ofList, List.prefix_append_right_inj]
      exact List.take_prefix _ _

theorem Prefixed.println (x : String) : Prefixed (println x) := by
  rintro ⟨o, e, f⟩
  refine ⟨⟨?_, List.prefix_refl _⟩, ?_, rfl⟩
  · simp [Source.println]
  · match f with
    | [] => exact .inl ⟨rfl, rfl, rfl⟩
    | none :: f => exact .inl ⟨rfl, rfl, rfl⟩
    | some k :: f =>
      refine .inr ⟨rfl, ?_, List.prefix_refl _⟩
      simp only [Source.println, String.toList_append, String.toList_ofList, List.prefix_append_right_inj]
      exact List.take_prefix _ _

theorem Prefixed.bind {d : Proc α} {f : α → Proc β} (hd : Prefixed d) (hf : ∀ a, Prefixed (f a)) :
    Prefixed (d >>= f) := by
  rintro ⟨o, e, fl⟩
  obtain ⟨⟨h1, h2⟩, h3, h4⟩ := hd ⟨o, e, fl⟩
  simp only [proc_bind] at *
  generalize d ⟨o, e, []⟩ = x0 at *
  generalize d ⟨o, e, fl⟩ = x at *
  obtain ⟨r0, ⟨o0, e0, f0⟩⟩ := x0
  obtain ⟨r, ⟨o1, e1, f1⟩⟩ := x
  simp only at h1 h2 h3 h4
  subst h4
  rcases h3 with ⟨rfl, rfl, rfl⟩ | ⟨rfl, p1, p2⟩
  · cases r with
    | ret a =>
      obtain ⟨⟨k1, k2⟩, k3, k4⟩ := hf a ⟨o1, e1, f1⟩
      exact ⟨⟨h1.trans k1, h2.trans k2⟩, k3, k4⟩
    | exit n => exact ⟨⟨h1, h2⟩, .inl ⟨rfl, rfl, rfl⟩, rfl⟩
    | panic => exact ⟨⟨h1, h2⟩, .inl ⟨rfl, rfl, rfl⟩, rfl⟩
    | fuel => exact ⟨⟨h1, h2⟩, .inl ⟨rfl, rfl, rfl⟩, rfl⟩
  · cases r0 with
    | ret a =>
      obtain ⟨⟨k1, k2⟩, k3, k4⟩ := hf a ⟨o0, e0, []⟩
      exact ⟨⟨h1.trans k1, h2.trans k2⟩, .inr ⟨rfl, p1.trans k1, p2.trans k2⟩, k4⟩
    | exit n => exact ⟨⟨h1, h2⟩, .inr ⟨rfl, p1, p2⟩, rfl⟩
    | panic => exact ⟨⟨h1, h2⟩, .inr ⟨rfl, p1, p2⟩, rfl⟩
    | fuel => exact ⟨⟨h1, h2⟩, .inr ⟨rfl, p1, p2⟩, rfl⟩

theorem Prefixed.fuelLoop {γ : Type} {f : Unit → γ → Proc (ForInStep γ)} (hf : ∀ x, Prefixed (f () x)) :
    ∀ (n : Nat) (x : γ), Prefixed (Fuel.procForIn f n x)
  | 0, _ => .fuel
  | n + 1, x => (hf x).bind fun y => by
      cases y with
      | done x => exact .pure x
      | yield x => exact Prefixed.fuelLoop hf n x

theorem Prefixed.list {γ δ : Type} {f : δ → γ → Proc (ForInStep γ)} (hf : ∀ y x, Prefixed (f y x)) :
    ∀ (l : List δ) (x : γ), Prefixed (forIn l x f)
  | [], x => by rw [List.forIn_nil]; exact .pure x
  | y :: l, x => by
      rw [List.forIn_cons]
      refine (hf y x).bind fun z => ?_
      cases z with
      | done x => exact .pure x
      | yield x => exact Prefixed.list hf l x

section
variable {R : Type}

theorem abort_prefixed {T : Type} (t : CliText) (fuel : Nat) (cli : Cli R) (err : DynError) :
    Prefixed (abort t fuel cli err : Proc T) := by
  unfold abort
  dsimp only
  have tail : Prefixed (if cli.verbose = true then do
      eprintln ("\nDEBUG OUTPUT:\n" ++ pretty t err)
      exit 1
    else exit 1 : Proc T) := by
    split
    · exact (Prefixed.eprintln _).bind fun _ => .exit _
    · exact .exit _
  refine (Prefixed.eprintln _).bind fun _ => Prefixed.bind (Prefixed.fuelLoop (fun x => ?_) _ _) fun _ => ?_
  · split
    · exact .pure _
    · exact .pure _
  · split
    · refine (Prefixed.eprintln _).bind fun _ => Prefixed.bind (.list (fun y x => ?_) _ _) fun _ => tail
      exact (Prefixed.eprintln _).bind fun _ => .pure _
    · exact tail

variable [Read R]

theorem main_prefixed (t : CliText) (fuel : Nat) (cli : Cli R) : Prefixed (main t fuel cli) := by
  have uoe : ∀ {ε α : Type} {d : Proc (Except ε α)} {f : ε → Proc α}, Prefixed d → (∀ e, Prefixed (f e)) →
      Prefixed (unwrap_or_else d f) := by
    intro ε α d f hd hf
    refine hd.bind fun x => ?_
    cases x with
    | ok a => exact .pure a
    | error e => exact hf e
  unfold main
  refine (uoe (.pure _) fun _ => abort_prefixed _ _ _ _).bind fun r => (uoe ?_ fun _ => abort_prefixed _ _ _ _).bind fun _ => ?_
  · intro s
    unfold decode
    cases (decode_module r).1 <;>
      exact ⟨⟨List.prefix_refl _, List.prefix_refl _⟩, .inl ⟨rfl, rfl, rfl⟩, rfl⟩
  · split
    · exact .println _
    · exact .pure _

/-- Faults of stdout and stderr: the process does what it does without them, or it panics (exit status 101)
having written a part of what it would have written. -/
theorem main_faults (t : CliText) (fuel : Nat) (cli : Cli R) (faults : List (Option Nat)) :
    outcome (main t fuel cli) faults = outcome (main t fuel cli) [] ∨
    ((outcome (main t fuel cli) faults).code = 101 ∧
      (outcome (main t fuel cli) faults).stdout.toList <+: (outcome (main t fuel cli) []).stdout.toList ∧
      (outcome (main t fuel cli) faults).stderr.toList <+: (outcome (main t fuel cli) []).stderr.toList) := by
  obtain ⟨-, h, -⟩ := main_prefixed t fuel cli ⟨"", "", faults⟩
  unfold outcome
  simp only at h
  generalize main t fuel cli ⟨"", "", []⟩ = x0 at *
  generalize main t fuel cli ⟨"", "", faults⟩ = x at *
  obtain ⟨r0, ⟨o0, e0, f0⟩⟩ := x0
  obtain ⟨r, ⟨o1, e1, f1⟩⟩ := x
  simp only at h
  rcases h with ⟨rfl, rfl, rfl⟩ | ⟨rfl, p1, p2⟩
  · left
    cases r <;> rfl
  · right
    cases r0 <;> exact ⟨rfl, p1, p2⟩

end

end Wadec.Source
