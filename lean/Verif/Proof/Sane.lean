import Verif.Proof.Curt
import Verif.Proof.Assemble
import Verif.Spec.Fault

/-! C79: the numbers in the errors that `decode_module` returns are in range, and the vectors are not long. -/

namespace Wadec

open Spec

theorem utf8_sane {v : Bytes} {e : FromUtf8Error} (hv : v.length < 2 ^ 32) (h : FUtf8 v e) : sane e.bytes.length e := by
  have hw : ∀ k, k < 2 ^ 32 → k < 2 ^ 64 := fun k hk => Nat.lt_of_lt_of_le hk (by decide)
  cases h with
  | incomplete _ _ _ _ =>
    refine ⟨Nat.le_refl _, hw _ ?_, fun k hk => by cases hk⟩
    rw [List.length_append] at hv; dsimp only; omega
  | invalid _ _ hn _ _ _ =>
    refine ⟨Nat.le_refl _, hw _ ?_, fun k hk => hw _ ?_⟩
    · rw [List.length_append] at hv; dsimp only; omega
    · cases hk; rw [List.length_append] at hv; omega

theorem vec_bound {α : Type} {B : Bytes → α → Prop} {b : Bytes} {l : List α} (h : BList B b l) : l.length < 2 ^ 32 := by
  cases h with
  | mk h _ => exact BU.lt h

theorem typeIdxs_bound : ∀ {bs : Bytes} {secs : List (UInt32 × Section)}, BSeq BSection bs secs →
    (nonCustom (secs.map Prod.snd)).Nodup → (typeIdxsOf (secs.map Prod.snd)).length < 2 ^ 32
  | _, _, .nil, _ => by decide
  | _, _, .cons (x := x) (xs := xs) h hs, hn => by
    cases h with
    | mk _ _ hc =>
    rename_i size s
    have hrest : (nonCustom (xs.map Prod.snd)).Nodup := by
      refine List.Sublist.nodup ?_ hn
      simp only [nonCustom, List.map_cons]
      exact (List.sublist_cons_self _ _).filter _
    have ih := typeIdxs_bound hs hrest
    cases hc with
    | function hl =>
      have hnil := typeIdxsOf_nil (ss := xs.map Prod.snd) (fun v hv hk => by
        simp only [nonCustom, List.map_cons, Section.kind] at hn
        rw [List.filter_cons_of_pos (by decide), List.nodup_cons] at hn
        exact hn.1 (List.mem_filter.2 ⟨List.mem_map.2 ⟨v, hv, hk⟩, by decide⟩))
      have := vec_bound hl
      simp only [typeIdxsOf, List.map_cons, List.flatMap_cons, List.length_append] at *
      rw [hnil]; simpa using this
    | _ => simpa [typeIdxsOf] using ih

theorem acceptable_nodup {ss : List Section} (h : Acceptable ss) : (nonCustom ss).Nodup :=
  h.order.nodup (by decide)

theorem contents_sane {x : End} {k : SectionKind} {b : Bytes} {e : DecodeModuleError} (h : FContents x k b e) :
    sane (nameLength e) e := by
  cases h with
  | customName h =>
    cases h with
    | bytes _ => trivial
    | utf8 hv hu => exact utf8_sane (vec_bound hv) hu
  | «import» h =>
    cases h with
    | length _ => trivial
    | element _ _ _ _ h =>
      cases h with
      | «module» h =>
        cases h with
        | bytes _ => trivial
        | utf8 hv hu => exact utf8_sane (vec_bound hv) hu
      | item _ h =>
        cases h with
        | bytes _ => trivial
        | utf8 hv hu => exact utf8_sane (vec_bound hv) hu
      | type => trivial
  | «export» h =>
    cases h with
    | length _ => trivial
    | element _ _ _ _ h =>
      cases h with
      | name h =>
        cases h with
        | bytes _ => trivial
        | utf8 hv hu => exact utf8_sane (vec_bound hv) hu
      | _ => trivial
  | _ => trivial

/-- the numbers in an error that `decode_module` returns are in range -/
theorem module_sane {x : End} {b : Bytes} {e : DecodeModuleError} (h : FModule x b e) : sane (nameLength e) e := by
  have hw : ∀ k, k < 2 ^ 32 → k < 2 ^ 64 := fun k hk => Nat.lt_of_lt_of_le hk (by decide)
  cases h with
  | preambleShort _ => trivial
  | preamble h _ => exact Nat.le_of_eq h
  | header _ _ => trivial
  | duplicate _ _ => trivial
  | order _ _ _ => trivial
  | contents _ _ h => exact contents_sane h
  | codeCount h _ hc _ _ =>
    cases h with
    | mk hs ha _ => cases hc with
      | code hl => exact ⟨hw _ (vec_bound hl), hw _ (typeIdxs_bound hs (acceptable_nodup ha))⟩
  | dataCount _ _ hc _ _ _ =>
    cases hc with
    | data hl => exact hw _ (vec_bound hl)
  | size _ _ _ _ _ _ _ => trivial
  | customSize _ _ _ _ _ => trivial
  | noCode h _ _ _ =>
    cases h with
    | mk hs ha => exact ⟨by decide, hw _ (typeIdxs_bound hs (acceptable_nodup ha))⟩
  | noData _ _ _ _ _ _ => exact show 0 < 2 ^ 64 by decide
  | noDataCount _ _ _ _ _ => trivial

end Wadec
