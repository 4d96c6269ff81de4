import Verif.Proof.ShortestModule
import Verif.Props.Sample
import Verif.Props.Unambiguous

/-! C73: every accepted module has a shortest form.  `shModule`, `shExpr`, `SameContents`: Verif/Spec/Shortest. -/

namespace Wadec

open LawfulRead Spec

theorem same_short {m m' : Module} (h : SameContents m m') : shModule m = shModule m' := by
  rw [h]; rfl

/-- C73: a module that has been decoded is written down in at most as many bytes as it was read from. -/
theorem c73_length {R : Type} [LawfulRead R] {r r' : R} {m : Module} (h : decodeModule r = (.ok m, r')) :
    (shModule m).length ≤ (avail r).length :=
  (module_short (c17_sound h)).2

/-- C73: this form is accepted, and read back with every field intact; only the record of sections is that of the new form. -/
theorem c73_accepted {R S : Type} [LawfulRead R] [LawfulRead S] {r r' : R} {m : Module} (h : decodeModule r = (.ok m, r'))
    {s : S} (ha : avail s = shModule m) (hf : fin s = .eof) : ∃ m' s', decodeModule s = (.ok m', s') ∧ SameContents m m' := by
  obtain ⟨s', hs⟩ := c18_complete (r := s) (by rw [ha]; exact (module_short (c17_sound h)).1) hf
  exact ⟨_, s', hs, rfl⟩

/-- C73: there is none shorter: whatever else is decoded to these contents has at least as many bytes. -/
theorem c73_minimal {R : Type} [LawfulRead R] {r r' : R} {m m' : Module} (h : decodeModule r = (.ok m', r'))
    (hc : SameContents m m') : (shModule m).length ≤ (avail r).length := by
  rw [same_short hc]; exact c73_length h

/-- C73: once in this form, it stays as it is. -/
theorem c73_fixed {R S : Type} [LawfulRead R] [LawfulRead S] {r r' : R} {m m' : Module} (h : decodeModule r = (.ok m, r'))
    {s s' : S} (ha : avail s = shModule m) (hd : decodeModule s = (.ok m', s')) : shModule m' = shModule m ∧ avail s = shModule m' := by
  have h1 := c17_sound hd
  rw [ha] at h1
  have h2 := (module_short (c17_sound h)).1
  have e := c35_module h1 h2
  subst e
  exact ⟨rfl, ha⟩

/-- C73: it is a normal form: two accepted inputs have the same shortest form exactly if they have the same contents. -/
theorem c73_canonical {R S : Type} [LawfulRead R] [LawfulRead S] {r r' : R} {s s' : S} {m n : Module}
    (hr : decodeModule r = (.ok m, r')) (hs : decodeModule s = (.ok n, s')) : shModule m = shModule n ↔ SameContents m n := by
  refine ⟨fun h => ?_, same_short⟩
  obtain ⟨m', t, h1, h2⟩ := c73_accepted hr (s := Src.ofBytes (shModule m)) (avail_ofBytes _) rfl
  obtain ⟨n', t', h3, h4⟩ := c73_accepted hs (s := Src.ofBytes (shModule m)) (by rw [avail_ofBytes, h]) rfl
  rw [h1] at h3
  cases h3
  clear h1 hr hs h
  unfold SameContents at *
  cases m; cases n; cases m'
  simp only [Module.mk.injEq] at *
  simp_all

/-- C73: the same for what modules are made of. -/
theorem c73_parts :
    (∀ {bs n}, BU32 bs n → BU32 (encU n.toNat) n ∧ (encU n.toNat).length ≤ bs.length) ∧
    (∀ {bs n}, BI32 bs n → BI32 (encS n.toInt) n ∧ (encS n.toInt).length ≤ bs.length) ∧
    (∀ {bs n}, BI64 bs n → BI64 (encS n.toInt) n ∧ (encS n.toInt).length ≤ bs.length) ∧
    (∀ {bs t}, BRecType bs t → BRecType (shRecType t) t ∧ (shRecType t).length ≤ bs.length) ∧
    (∀ {bs e}, BExpr bs e → BExpr (shExpr e) e ∧ (shExpr e).length ≤ bs.length) ∧
    (∀ {bs e}, BElem bs e → BElem (shElem e) e ∧ (shElem e).length ≤ bs.length) ∧
    (∀ {bs c}, BCode bs c → BCode (shCode c) c ∧ (shCode c).length ≤ bs.length) ∧
    (∀ {bs s}, BContents bs s → BContents (shContents s) s ∧ (shContents s).length ≤ bs.length) :=
  ⟨sh_u32, sh_i32, sh_i64, shrinks_rec, shrinks_expr, shrinks_elem, shrinks_code, shrinks_contents⟩

/-! ### Instances -/

/-- The sample module: 71 bytes. -/
example : (shModule (assemble secsA)).length ≤ 71 := (module_short bModA).2

/-- A code entry of 14 bytes: a padded size, three runs of locals (two, none and one), the middle one of another type, and `end`. -/
theorem long_code : BCode [0x8C, 0x00, 0x03, 0x82, 0x00, 0x7F, 0x00, 0x7E, 0x81, 0x80, 0x80, 0x00, 0x7F, 0x0B]
    ⟨[.Num .Int32, .Num .Int32, .Num .Int32], []⟩ := by
  have h2 : BU 32 [0x82, 0x00] 2 := .more (by decide) (by decide) (.last (by decide) (by decide))
  have h1 : BU 32 [0x81, 0x80, 0x80, 0x00] 1 :=
    .more (by decide) (by decide) (.more (by decide) (by decide) (.more (by decide) (by decide) (.last (by decide) (by decide))))
  have h0 : BU 32 [0x00] 0 := .last (by decide) (by decide)
  have r1 : BLocals [0x82, 0x00, 0x7F] (2, .Num .Int32) := .mk (b1 := [0x82, 0x00]) h2 .i32
  have r2 : BLocals [0x00, 0x7E] (0, .Num .Int64) := .mk (b1 := [0x00]) h0 .i64
  have r3 : BLocals [0x81, 0x80, 0x80, 0x00, 0x7F] (1, .Num .Int32) := .mk (b1 := [0x81, 0x80, 0x80, 0x00]) h1 .i32
  have hl : BList BLocals [0x03, 0x82, 0x00, 0x7F, 0x00, 0x7E, 0x81, 0x80, 0x80, 0x00, 0x7F]
      [(2, .Num .Int32), (0, .Num .Int64), (1, .Num .Int32)] :=
    .mk (b := [0x03]) (.last (by decide) (by decide)) (.cons r1 (.cons r2 (.cons r3 .nil)))
  have hf := BFunc.mk (b2 := [0x0B]) hl (.mk .nil) (by decide)
  exact .mk (b1 := [0x8C, 0x00]) (.more (by decide) (by decide) (.last (by decide) (by decide))) hf

/-- Its shortest form has five. -/
example : shCode ⟨[.Num .Int32, .Num .Int32, .Num .Int32], []⟩ = [0x04, 0x01, 0x03, 0x7F, 0x0B] ∧
    BCode [0x04, 0x01, 0x03, 0x7F, 0x0B] ⟨[.Num .Int32, .Num .Int32, .Num .Int32], []⟩ := by
  have e : shCode ⟨[.Num .Int32, .Num .Int32, .Num .Int32], []⟩ = [0x04, 0x01, 0x03, 0x7F, 0x0B] := by
    simp [shCode, shFuncBody, encList, runsOf, shRun, shExpr, shInstrs, encU, shValType, encValType]
  exact ⟨e, e ▸ (c73_parts.2.2.2.2.2.2.1 long_code).1⟩

/-- An empty element segment for table 0 is shorter with expressions than with indices, one with two functions the other way round. -/
example : (shElem ⟨⟨true, .Ht .Func⟩, [], .Active ⟨0⟩ []⟩).length = 3 ∧
    (shElem ⟨⟨true, .Ht .Func⟩, refFuncs [⟨1⟩, ⟨2⟩], .Active ⟨0⟩ []⟩).length = 7 := by
  have hr : ∀ y : FuncIdx, shExpr [.RefFunc y] = 0xD2 :: (encU y.val.toNat ++ [0x0B]) := by
    intro y
    rw [shExpr, shInstrs, shInstrs, shInstr_leaf (op := .byte 0xD2) (imms := encU y.val.toNat) rfl]
    simp [encOpcode]
  have he : shExpr [] = [0x0B] := by rw [shExpr, shInstrs]; rfl
  have hu : ∀ n, n < 128 → encU n = [UInt8.ofNat n] := by intro n h; rw [encU, if_pos h]
  constructor
  · simp [shElem, shortest, funcsOf, idxForms, exprForms, encList, he, hu, shRefType]
  · simp [shElem, shortest, funcsOf, refFuncs, idxForms, exprForms, encList, he, hr, hu, shRefType]

/-- The sample module and what its shortest form is decoded to have the same shortest form; without its first custom section it is another. -/
example : ∀ m s', decodeModule (Src.ofBytes (shModule (assemble secsA))) = (.ok m, s') → shModule m = shModule (assemble secsA) := by
  intro m s' h
  obtain ⟨r', hA⟩ := c18_complete (r := Src.ofBytes (preamble ++ bytesA)) (by rw [avail_ofBytes]; exact bModA) rfl
  obtain ⟨m', t, h1, h2⟩ := c73_accepted hA (avail_ofBytes (shModule (assemble secsA))) rfl
  rw [h] at h1
  cases h1
  exact ((c73_canonical hA h).2 h2).symm

example {m : Module} {r' : Src} (h : decodeModule (Src.ofBytes (preamble ++ bytesB)) = (.ok m, r')) :
    shModule m ≠ shModule (assemble secsA) := by
  obtain ⟨s', hA⟩ := c18_complete (r := Src.ofBytes (preamble ++ bytesA)) (by rw [avail_ofBytes]; exact bModA) rfl
  intro he
  have h2 := (c73_canonical h hA).1 he
  have hb : BModule (preamble ++ bytesB) m := by have := c17_sound h; rwa [avail_ofBytes] at this
  generalize hx : preamble ++ bytesB = b at hb
  cases hb with
  | @mk bs ss hs hw =>
    have hx := List.append_cancel_left hx
    subst hx
    obtain ⟨rfl⟩ := sections_unique hs bSecsB
    have := congrArg (fun m : Module => m.custom_sections.length) h2
    revert this; decide

end Wadec
