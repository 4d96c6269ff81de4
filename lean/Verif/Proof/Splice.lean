import Verif.Proof.ShortestModule
import Verif.Props.Unambiguous
import Verif.Props.Module
import Verif.Spec.Splice

/-! Proofs for C74. -/

namespace Wadec

open Spec LawfulRead

/-- How the entries `F` appear as a section. -/
structure Placed {α : Type} (F : EntryKind α) (wrap : List α → Section) : Prop where
  kind : ∀ l, (wrap l).kind = F.kind
  contents : ∀ {b s}, BContents b s → s.kind = F.kind → ∃ l, s = wrap l ∧ BList F.B b l
  wrapped : ∀ {b l}, BList F.B b l → BContents b (wrap l)
  unamb : Unambiguous F.B
  gets : ∀ {a z l c}, WellFormed ((a ++ (z, wrap l) :: c).map Prod.snd) → F.get (assemble (a ++ (z, wrap l) :: c)) = l
  puts : ∀ {a z l c z' l'}, WellFormed ((a ++ (z, wrap l) :: c).map Prod.snd) →
    WellFormed ((a ++ (z', wrap l') :: c).map Prod.snd) →
    assemble (a ++ (z', wrap l') :: c) =
      { F.put (assemble (a ++ (z, wrap l) :: c)) l' with
        section_headers := (assemble (a ++ (z, wrap l) :: c)).section_headers.set a.length ⟨F.kind, z'⟩ }
  good : ∀ {a z c z' pre mid new post}, WellFormed ((a ++ (z, wrap (pre ++ (mid ++ post))) :: c).map Prod.snd) →
    (WellFormed ((a ++ (z', wrap (pre ++ (new ++ post))) :: c).map Prod.snd) ↔
      F.ok (assemble (a ++ (z, wrap (pre ++ (mid ++ post))) :: c)) mid new)

/-- EntryKind that begin a sequence of entries. -/
theorem seq_prefix {α : Type} {B : Bytes → α → Prop} (hB : Unambiguous B) :
    ∀ {xs ys : List α} {b1 b2 t1 t2 : Bytes}, BSeq B b1 xs → BSeq B b2 ys → xs.length ≤ ys.length →
    b1 ++ t1 = b2 ++ t2 → ∃ b zs, b2 = b1 ++ b ∧ ys = xs ++ zs ∧ BSeq B b zs := by
  intro xs
  induction xs with
  | nil => intro ys b1 b2 t1 t2 h1 h2 _ _; cases h1; exact ⟨b2, ys, rfl, rfl, h2⟩
  | cons x xs ih =>
    intro ys b1 b2 t1 t2 h1 h2 hl he
    cases ys with
    | nil => simp at hl
    | cons y ys =>
      cases h1 with
      | @cons c1 d1 _ _ hx h1 =>
        cases h2 with
        | @cons c2 d2 _ _ hy h2 =>
          rw [List.append_assoc, List.append_assoc] at he
          obtain ⟨rfl, rfl⟩ := hB hx hy he
          obtain ⟨b, zs, rfl, rfl, h⟩ := ih h1 h2 (by simpa using hl) (List.append_cancel_left he)
          exact ⟨b, zs, by simp, by simp, h⟩

theorem seq_append {α : Type} {B : Bytes → α → Prop} : ∀ {xs ys : List α} {b1 b2 : Bytes},
    BSeq B b1 xs → BSeq B b2 ys → BSeq B (b1 ++ b2) (xs ++ ys)
  | [], _, _, _, h1, h2 => by cases h1; exact h2
  | x :: xs, _, _, _, h1, h2 => by
    cases h1 with
    | cons hx h1 => rw [List.append_assoc]; exact .cons hx (seq_append h1 h2)

/-- The section at a valid place of a sequence of sections. -/
theorem site_section {α : Type} {F : EntryKind α} {wrap : List α → Section} (hF : Placed F wrap) {p : Site α} (hp : p.Valid F)
    {bs : Bytes} (hb : preamble ++ bs = p.bytes F) {secs : List (UInt32 × Section)} (hs : BSeq BSection bs secs) :
    ∃ (b c : Bytes) (post : List α) (tl : List (UInt32 × Section)), p.rest = b ++ c ∧ BSeq F.B b post ∧ BSeq BSection c tl ∧
      (p.n ++ (p.es1 ++ (p.es ++ b))).length = p.size.toNat ∧
      p.count.toNat = p.pre.length + p.mid.length + post.length ∧
      secs = p.secs ++ (p.size, wrap (p.pre ++ (p.mid ++ post))) :: tl := by
  have hb := List.append_cancel_left hb
  subst hb
  obtain ⟨tl, rfl, ht⟩ := sections_prefix hp.secs hs
  generalize hx : sectionId F.kind :: (p.sz ++ (p.n ++ (p.es1 ++ (p.es ++ p.rest)))) = x at ht
  cases ht with
  | nil => cases hx
  | @cons c1 c2 sec tl h1 h2 =>
    cases h1 with
    | @mk d1 d2 size s hu hlen hc =>
      simp only [List.cons_append, List.cons.injEq, List.append_assoc] at hx
      obtain ⟨hi, hx⟩ := hx
      obtain ⟨rfl, rfl⟩ := c35_values.1 hp.size hu hx
      have hx := List.append_cancel_left hx
      obtain ⟨l, rfl, hl⟩ := hF.contents hc (sectionId_inj hi).symm
      cases hl with
      | @mk n es _ hn he =>
        have hlt := Wadec.BU.lt hn
        have e1 : (UInt32.ofNat l.length).toNat = l.length := by rw [UInt32.toNat_ofNat', Nat.mod_eq_of_lt hlt]
        rw [List.append_assoc] at hx
        obtain ⟨rfl, hv⟩ := c35_values.1 hp.count (v2 := UInt32.ofNat l.length) (show BU 32 _ _ by rw [e1]; exact hn) hx
        have hx := List.append_cancel_left hx
        have hcount : p.count.toNat = l.length := by rw [hv, e1]
        obtain ⟨b, post, rfl, rfl, hpost⟩ := seq_prefix hF.unamb (seq_append hp.pre hp.mid) he
          (by rw [List.length_append]; have := hp.room; omega) (t1 := p.rest) (t2 := c2) (by rw [← hx]; simp)
        have hrest : p.rest = b ++ c2 := by
          simp only [List.append_assoc] at hx
          exact List.append_cancel_left (List.append_cancel_left hx)
        refine ⟨b, c2, post, tl, hrest, hpost, h2, ?_, ?_, by rw [List.append_assoc]⟩
        · rw [← hlen]; simp
        · rw [hcount]; simp only [List.length_append]

theorem splice {α : Type} {F : EntryKind α} {wrap : List α → Section} (hF : Placed F wrap) {p q : Site α}
    (hp : p.Valid F) (hq : q.Valid F) (he : p.Edits q) {m : Module} (hm : BModule (p.bytes F) m) :
    ∃ post, F.get m = p.pre ++ (p.mid ++ post) ∧ m.section_headers[p.secs.length]? = some ⟨F.kind, p.size⟩ ∧
      (F.ok m p.mid q.mid → BModule (q.bytes F)
        { F.put m (p.pre ++ (q.mid ++ post)) with
          section_headers := m.section_headers.set p.secs.length ⟨F.kind, q.size⟩ }) ∧
      (∀ m', BModule (q.bytes F) m' → F.ok m p.mid q.mid) := by
  generalize hb : p.bytes F = b at hm
  cases hm with
  | @mk bs secs hs hw =>
    obtain ⟨b, c, post, tl, hrest, hpost, htl, hsize, hcount, rfl⟩ := site_section hF hp hb.symm hs
    refine ⟨post, hF.gets hw, ?_, ?_, ?_⟩
    · simp [assemble, hF.kind]
    · intro hok
      have hw' := (hF.good (z' := q.size) hw).2 hok
      rw [← hF.puts hw hw']
      unfold Site.bytes
      refine .mk ?_ hw'
      rw [he.before, he.es1, he.rest, hrest]
      refine seq_append hp.secs ?_
      have hl : BList F.B (q.n ++ (p.es1 ++ (q.es ++ b))) (p.pre ++ (q.mid ++ post)) := by
        refine .mk ?_ (seq_append hp.pre (seq_append hq.mid hpost))
        have : (p.pre ++ (q.mid ++ post)).length = q.count.toNat := by
          have := he.count; simp only [List.length_append]; omega
        rw [this]; exact hq.count
      have := BSection.mk hq.size (by
        have := he.size; simp only [List.length_append] at this hsize ⊢; omega) (hF.wrapped hl)
      rw [hF.kind] at this
      have := BSeq.cons this htl
      simpa [List.append_assoc] using this
    · intro m' hm'
      generalize hb' : q.bytes F = b' at hm'
      cases hm' with
      | @mk bs' secs' hs' hw' =>
        obtain ⟨b', c', post', tl', hrest', hpost', htl', hsize', hcount', rfl⟩ := site_section hF hq hb'.symm hs'
        have hl : (b ++ c).length = (b' ++ c').length := by rw [← hrest, ← hrest', he.rest]
        have hlen : post.length = post'.length := by
          have := he.count; rw [he.pre] at hcount'; omega
        have hbc : b ++ c = b' ++ c' := by rw [← hrest, ← hrest', he.rest]
        obtain ⟨rfl, rfl⟩ := BSeq.unique hF.unamb hpost hpost' hlen hbc
        have hbc := List.append_cancel_left hbc
        subst hbc
        have := sections_unique htl htl'
        subst this
        rw [he.secs, he.pre] at hw'
        exact (hF.good hw).1 hw'

/-! ### The eleven kinds -/

theorem alone {a c : List Section} {s : Section} (h : List.Sublist (nonCustom (a ++ s :: c)) sectionOrder) (hk : s.kind ≠ .Custom) :
    (∀ x ∈ a, x.kind ≠ s.kind) ∧ (∀ x ∈ c, x.kind ≠ s.kind) := by
  have h1 := ofKind_one h hk
  unfold ofKind at h1
  rw [List.filter_append, List.filter_cons, if_pos (by simp)] at h1
  simp only [List.length_append, List.length_cons] at h1
  have ha : (a.filter fun x => decide (x.kind = s.kind)) = [] := List.eq_nil_of_length_eq_zero (by omega)
  have hc : (c.filter fun x => decide (x.kind = s.kind)) = [] := List.eq_nil_of_length_eq_zero (by omega)
  rw [List.filter_eq_nil_iff] at ha hc
  exact ⟨fun x hx => by simpa using ha x hx, fun x hx => by simpa using hc x hx⟩

/-- A list function that only sees sections of one kind, around the only section of that kind. -/
theorem around {α : Type} {g : Section → List α} {a c : List Section} {s : Section}
    (hg : ∀ x, x.kind ≠ s.kind → g x = []) (h : List.Sublist (nonCustom (a ++ s :: c)) sectionOrder) (hk : s.kind ≠ .Custom) :
    (a ++ s :: c).flatMap g = g s := by
  obtain ⟨ha, hc⟩ := alone h hk
  rw [List.flatMap_append, List.flatMap_cons, List.flatMap_eq_nil_iff.2 fun x hx => hg x (ha x hx),
    List.flatMap_eq_nil_iff.2 fun x hx => hg x (hc x hx)]
  simp

/-- A list function that does not see a section. -/
theorem beside {α : Type} {g : Section → List α} {a c : List Section} {s s' : Section} (h : g s = g s') :
    (a ++ s :: c).flatMap g = (a ++ s' :: c).flatMap g := by
  simp [h]

theorem besideOpt {α : Type} {g : Section → Option α} {a c : List Section} {s s' : Section} (h : g s = g s') :
    (a ++ s :: c).filterMap g = (a ++ s' :: c).filterMap g := by
  simp [List.filterMap_cons, h]

theorem sameKinds {a c : List Section} {s s' : Section} (h : s'.kind = s.kind) :
    nonCustom (a ++ s' :: c) = nonCustom (a ++ s :: c) := by
  simp [nonCustom, h]

theorem sameHeaders {α β : Type} {f : α → β} {a : List α} {x y : β} {c : List β} :
    a.map f ++ y :: c = (a.map f ++ x :: c).set a.length y := by
  simp

theorem zipBoth {α β γ : Type} {f : α → β → γ} {a a' : List α} {b b' : List β} (h1 : a = a') (h2 : b = b') :
    List.zipWith f a b = List.zipWith f a' b' := by rw [h1, h2]

theorem zip_retype : ∀ (xs ys : List TypeIdx) (cs : List CodeEntry), xs.length = cs.length → ys.length = cs.length →
    List.zipWith (fun (f : Func) x => { f with type := x }) (List.zipWith mkFunc xs cs) ys = List.zipWith mkFunc ys cs := by
  intro xs ys cs
  induction cs generalizing xs ys with
  | nil => intro h1 h2; rw [List.eq_nil_of_length_eq_zero h1, List.eq_nil_of_length_eq_zero h2]; rfl
  | cons c cs ih =>
    intro h1 h2
    cases xs with
    | nil => cases h1
    | cons x xs =>
      cases ys with
      | nil => cases h2
      | cons y ys =>
        have := ih xs ys (by simpa using h1) (by simpa using h2)
        simp only [List.zipWith_cons_cons, this]; rfl

theorem zip_recode : ∀ (xs : List TypeIdx) (cs ds : List CodeEntry), xs.length = cs.length → xs.length = ds.length →
    List.zipWith (fun (f : Func) (c : CodeEntry) => { f with locals := c.locals, body := c.body }) (List.zipWith mkFunc xs cs) ds =
      List.zipWith mkFunc xs ds := by
  intro xs
  induction xs with
  | nil => intro cs ds h1 h2; rw [List.eq_nil_of_length_eq_zero h1.symm, List.eq_nil_of_length_eq_zero h2.symm]; rfl
  | cons x xs ih =>
    intro cs ds h1 h2
    cases cs with
    | nil => cases h1
    | cons c cs =>
      cases ds with
      | nil => cases h2
      | cons d ds =>
        have := ih cs ds (by simpa using h1) (by simpa using h2)
        simp only [List.zipWith_cons_cons, this]; rfl

/-- Closes an equation between what two modules contain that differ in one section. -/
macro "splices" : tactic => `(tactic|
  first
  | rfl
  | exact sameKinds rfl
  | exact sameHeaders
  | exact beside rfl
  | exact besideOpt rfl
  | exact congrArg List.head? (besideOpt rfl)
  | exact zipBoth (beside rfl) (beside rfl)
  | exact trivial)

theorem wellFormed_same {a c : List Section} {s s' : Section} (h : WellFormed (a ++ s :: c)) (hk : s'.kind = s.kind)
    (h1 : typeIdxsOf [s'] = typeIdxsOf [s]) (h2 : codesOf [s'] = codesOf [s]) (h3 : datasOf [s'] = datasOf [s])
    (h4 : dataCountOf [s'] = dataCountOf [s]) : WellFormed (a ++ s' :: c) := by
  have e1 : typeIdxsOf (a ++ s' :: c) = typeIdxsOf (a ++ s :: c) := by
    simp only [typeIdxsOf, List.flatMap_cons, List.flatMap_nil, List.append_nil] at h1; exact beside h1
  have e2 : codesOf (a ++ s' :: c) = codesOf (a ++ s :: c) := by
    simp only [codesOf, List.flatMap_cons, List.flatMap_nil, List.append_nil] at h2; exact beside h2
  have e3 : datasOf (a ++ s' :: c) = datasOf (a ++ s :: c) := by
    simp only [datasOf, List.flatMap_cons, List.flatMap_nil, List.append_nil] at h3; exact beside h3
  have e4 : dataCountOf (a ++ s' :: c) = dataCountOf (a ++ s :: c) := by
    refine congrArg List.head? (besideOpt ?_)
    cases s' <;> cases s <;> first | rfl | cases hk
    simpa [dataCountOf] using h4
  exact ⟨by rw [sameKinds hk]; exact h.order, by rw [e1, e2]; exact h.funcs, by rw [e3, e4]; exact h.dataCount,
    by rw [e2, e4]; exact h.dataIdx⟩

theorem types_lone {a c : List Section} {l} (h : List.Sublist (nonCustom (a ++ .type l :: c)) sectionOrder) :
    typesOf (a ++ .type l :: c) = l :=
  around (s := .type l) (fun x hx => by cases x <;> first | rfl | exact absurd rfl hx) h nofun

theorem imports_lone {a c : List Section} {l} (h : List.Sublist (nonCustom (a ++ .import l :: c)) sectionOrder) :
    importsOf (a ++ .import l :: c) = l :=
  around (s := .import l) (fun x hx => by cases x <;> first | rfl | exact absurd rfl hx) h nofun

theorem tables_lone {a c : List Section} {l} (h : List.Sublist (nonCustom (a ++ .table l :: c)) sectionOrder) :
    tablesOf (a ++ .table l :: c) = l :=
  around (s := .table l) (fun x hx => by cases x <;> first | rfl | exact absurd rfl hx) h nofun

theorem mems_lone {a c : List Section} {l} (h : List.Sublist (nonCustom (a ++ .memory l :: c)) sectionOrder) :
    memsOf (a ++ .memory l :: c) = l :=
  around (s := .memory l) (fun x hx => by cases x <;> first | rfl | exact absurd rfl hx) h nofun

theorem tags_lone {a c : List Section} {l} (h : List.Sublist (nonCustom (a ++ .tag l :: c)) sectionOrder) :
    tagsOf (a ++ .tag l :: c) = l :=
  around (s := .tag l) (fun x hx => by cases x <;> first | rfl | exact absurd rfl hx) h nofun

theorem globals_lone {a c : List Section} {l} (h : List.Sublist (nonCustom (a ++ .global l :: c)) sectionOrder) :
    globalsOf (a ++ .global l :: c) = l :=
  around (s := .global l) (fun x hx => by cases x <;> first | rfl | exact absurd rfl hx) h nofun

theorem exports_lone {a c : List Section} {l} (h : List.Sublist (nonCustom (a ++ .export l :: c)) sectionOrder) :
    exportsOf (a ++ .export l :: c) = l :=
  around (s := .export l) (fun x hx => by cases x <;> first | rfl | exact absurd rfl hx) h nofun

theorem elems_lone {a c : List Section} {l} (h : List.Sublist (nonCustom (a ++ .element l :: c)) sectionOrder) :
    elemsOf (a ++ .element l :: c) = l :=
  around (s := .element l) (fun x hx => by cases x <;> first | rfl | exact absurd rfl hx) h nofun

theorem datas_lone {a c : List Section} {l} (h : List.Sublist (nonCustom (a ++ .data l :: c)) sectionOrder) :
    datasOf (a ++ .data l :: c) = l :=
  around (s := .data l) (fun x hx => by cases x <;> first | rfl | exact absurd rfl hx) h nofun

theorem typeIdxs_lone {a c : List Section} {l} (h : List.Sublist (nonCustom (a ++ .function l :: c)) sectionOrder) :
    typeIdxsOf (a ++ .function l :: c) = l :=
  around (s := .function l) (fun x hx => by cases x <;> first | rfl | exact absurd rfl hx) h nofun

theorem codes_lone {a c : List Section} {l} (h : List.Sublist (nonCustom (a ++ .code l :: c)) sectionOrder) :
    codesOf (a ++ .code l :: c) = l :=
  around (s := .code l) (fun x hx => by cases x <;> first | rfl | exact absurd rfl hx) h nofun

theorem placed_types : Placed entTypes .type where
  kind _ := rfl
  contents h hk := by cases h <;> first | exact ⟨_, rfl, by assumption⟩ | cases hk
  wrapped h := .type h
  unamb := c35_types.2.2.2.1
  gets h := by
    simp only [assemble, entTypes, List.map_append, List.map_cons] at h ⊢
    exact types_lone h.order
  puts h h' := by
    simp only [List.map_append, List.map_cons] at h'
    simp only [assemble, entTypes, List.map_append, List.map_cons, Module.mk.injEq]
    refine ⟨?_, ?_, ?_, ?_, ?_, ?_, ?_, ?_, ?_, ?_, ?_, ?_, ?_, ?_, ?_, ?_⟩ <;> first | splices | exact types_lone h'.order
  good h := by
    simp only [List.map_append, List.map_cons] at h ⊢
    exact ⟨fun _ => trivial, fun _ => wellFormed_same h rfl rfl rfl rfl rfl⟩

theorem placed_imports : Placed entImports .import where
  kind _ := rfl
  contents h hk := by cases h <;> first | exact ⟨_, rfl, by assumption⟩ | cases hk
  wrapped h := .import h
  unamb := c35_entries.1
  gets h := by
    simp only [assemble, entImports, List.map_append, List.map_cons] at h ⊢
    exact imports_lone h.order
  puts h h' := by
    simp only [List.map_append, List.map_cons] at h'
    simp only [assemble, entImports, List.map_append, List.map_cons, Module.mk.injEq]
    refine ⟨?_, ?_, ?_, ?_, ?_, ?_, ?_, ?_, ?_, ?_, ?_, ?_, ?_, ?_, ?_, ?_⟩ <;> first | splices | exact imports_lone h'.order
  good h := by
    simp only [List.map_append, List.map_cons] at h ⊢
    exact ⟨fun _ => trivial, fun _ => wellFormed_same h rfl rfl rfl rfl rfl⟩

theorem placed_tables : Placed entTables .table where
  kind _ := rfl
  contents h hk := by cases h <;> first | exact ⟨_, rfl, by assumption⟩ | cases hk
  wrapped h := .table h
  unamb := c35_entries.2.1
  gets h := by
    simp only [assemble, entTables, List.map_append, List.map_cons] at h ⊢
    exact tables_lone h.order
  puts h h' := by
    simp only [List.map_append, List.map_cons] at h'
    simp only [assemble, entTables, List.map_append, List.map_cons, Module.mk.injEq]
    refine ⟨?_, ?_, ?_, ?_, ?_, ?_, ?_, ?_, ?_, ?_, ?_, ?_, ?_, ?_, ?_, ?_⟩ <;> first | splices | exact tables_lone h'.order
  good h := by
    simp only [List.map_append, List.map_cons] at h ⊢
    exact ⟨fun _ => trivial, fun _ => wellFormed_same h rfl rfl rfl rfl rfl⟩

theorem placed_mems : Placed entMems .memory where
  kind _ := rfl
  contents h hk := by cases h <;> first | exact ⟨_, rfl, by assumption⟩ | cases hk
  wrapped h := .memory h
  unamb := c35_types.2.2.2.2.2.2.2.2.2.2.1
  gets h := by
    simp only [assemble, entMems, List.map_append, List.map_cons] at h ⊢
    exact mems_lone h.order
  puts h h' := by
    simp only [List.map_append, List.map_cons] at h'
    simp only [assemble, entMems, List.map_append, List.map_cons, Module.mk.injEq]
    refine ⟨?_, ?_, ?_, ?_, ?_, ?_, ?_, ?_, ?_, ?_, ?_, ?_, ?_, ?_, ?_, ?_⟩ <;> first | splices | exact mems_lone h'.order
  good h := by
    simp only [List.map_append, List.map_cons] at h ⊢
    exact ⟨fun _ => trivial, fun _ => wellFormed_same h rfl rfl rfl rfl rfl⟩

theorem placed_tags : Placed entTags .tag where
  kind _ := rfl
  contents h hk := by cases h <;> first | exact ⟨_, rfl, by assumption⟩ | cases hk
  wrapped h := .tag h
  unamb := c35_types.2.2.2.2.2.2.2.2.2.2.2.2.1
  gets h := by
    simp only [assemble, entTags, List.map_append, List.map_cons] at h ⊢
    exact tags_lone h.order
  puts h h' := by
    simp only [List.map_append, List.map_cons] at h'
    simp only [assemble, entTags, List.map_append, List.map_cons, Module.mk.injEq]
    refine ⟨?_, ?_, ?_, ?_, ?_, ?_, ?_, ?_, ?_, ?_, ?_, ?_, ?_, ?_, ?_, ?_⟩ <;> first | splices | exact tags_lone h'.order
  good h := by
    simp only [List.map_append, List.map_cons] at h ⊢
    exact ⟨fun _ => trivial, fun _ => wellFormed_same h rfl rfl rfl rfl rfl⟩

theorem placed_globals : Placed entGlobals .global where
  kind _ := rfl
  contents h hk := by cases h <;> first | exact ⟨_, rfl, by assumption⟩ | cases hk
  wrapped h := .global h
  unamb := c35_entries.2.2.1
  gets h := by
    simp only [assemble, entGlobals, List.map_append, List.map_cons] at h ⊢
    exact globals_lone h.order
  puts h h' := by
    simp only [List.map_append, List.map_cons] at h'
    simp only [assemble, entGlobals, List.map_append, List.map_cons, Module.mk.injEq]
    refine ⟨?_, ?_, ?_, ?_, ?_, ?_, ?_, ?_, ?_, ?_, ?_, ?_, ?_, ?_, ?_, ?_⟩ <;> first | splices | exact globals_lone h'.order
  good h := by
    simp only [List.map_append, List.map_cons] at h ⊢
    exact ⟨fun _ => trivial, fun _ => wellFormed_same h rfl rfl rfl rfl rfl⟩

theorem placed_exports : Placed entExports .export where
  kind _ := rfl
  contents h hk := by cases h <;> first | exact ⟨_, rfl, by assumption⟩ | cases hk
  wrapped h := .export h
  unamb := c35_entries.2.2.2.1
  gets h := by
    simp only [assemble, entExports, List.map_append, List.map_cons] at h ⊢
    exact exports_lone h.order
  puts h h' := by
    simp only [List.map_append, List.map_cons] at h'
    simp only [assemble, entExports, List.map_append, List.map_cons, Module.mk.injEq]
    refine ⟨?_, ?_, ?_, ?_, ?_, ?_, ?_, ?_, ?_, ?_, ?_, ?_, ?_, ?_, ?_, ?_⟩ <;> first | splices | exact exports_lone h'.order
  good h := by
    simp only [List.map_append, List.map_cons] at h ⊢
    exact ⟨fun _ => trivial, fun _ => wellFormed_same h rfl rfl rfl rfl rfl⟩

theorem placed_elems : Placed entElems .element where
  kind _ := rfl
  contents h hk := by cases h <;> first | exact ⟨_, rfl, by assumption⟩ | cases hk
  wrapped h := .element h
  unamb := c35_entries.2.2.2.2.1
  gets h := by
    simp only [assemble, entElems, List.map_append, List.map_cons] at h ⊢
    exact elems_lone h.order
  puts h h' := by
    simp only [List.map_append, List.map_cons] at h'
    simp only [assemble, entElems, List.map_append, List.map_cons, Module.mk.injEq]
    refine ⟨?_, ?_, ?_, ?_, ?_, ?_, ?_, ?_, ?_, ?_, ?_, ?_, ?_, ?_, ?_, ?_⟩ <;> first | splices | exact elems_lone h'.order
  good h := by
    simp only [List.map_append, List.map_cons] at h ⊢
    exact ⟨fun _ => trivial, fun _ => wellFormed_same h rfl rfl rfl rfl rfl⟩

theorem placed_datas : Placed entDatas .data where
  kind _ := rfl
  contents h hk := by cases h <;> first | exact ⟨_, rfl, by assumption⟩ | cases hk
  wrapped h := .data h
  unamb := c35_entries.2.2.2.2.2.2
  gets h := by
    simp only [assemble, entDatas, List.map_append, List.map_cons] at h ⊢
    exact datas_lone h.order
  puts h h' := by
    simp only [List.map_append, List.map_cons] at h'
    simp only [assemble, entDatas, List.map_append, List.map_cons, Module.mk.injEq]
    refine ⟨?_, ?_, ?_, ?_, ?_, ?_, ?_, ?_, ?_, ?_, ?_, ?_, ?_, ?_, ?_, ?_⟩ <;> first | splices | exact datas_lone h'.order
  good {a z c z' pre mid new post} h := by
    simp only [assemble, entDatas, List.map_append, List.map_cons] at h ⊢
    have ho : List.Sublist (nonCustom (a.map Prod.snd ++ .data (pre ++ (new ++ post)) :: c.map Prod.snd)) sectionOrder := by
      rw [sameKinds (s := .data (pre ++ (mid ++ post))) (s' := .data (pre ++ (new ++ post))) rfl]; exact h.order
    have hn : ∀ l, dataCountOf (a.map Prod.snd ++ .data l :: c.map Prod.snd) =
        dataCountOf (a.map Prod.snd ++ .data (pre ++ (mid ++ post)) :: c.map Prod.snd) := by
      intro l; exact congrArg List.head? (besideOpt rfl)
    have h1 := h.dataCount
    rw [datas_lone h.order] at h1
    generalize hd : dataCountOf (a.map Prod.snd ++ .data (pre ++ (mid ++ post)) :: c.map Prod.snd) = d at hn h1 ⊢
    constructor
    · intro hw hc
      have h2 := hw.dataCount
      rw [datas_lone ho, hn] at h2
      cases d with
      | none => exact absurd rfl hc
      | some n =>
        have h1 := h1 n rfl; have h2 := h2 n rfl
        simp only [List.length_append] at h1 h2; omega
    · intro hok
      have e1 : typeIdxsOf (a.map Prod.snd ++ .data (pre ++ (new ++ post)) :: c.map Prod.snd) =
        typeIdxsOf (a.map Prod.snd ++ .data (pre ++ (mid ++ post)) :: c.map Prod.snd) := beside rfl
      have e2 : codesOf (a.map Prod.snd ++ .data (pre ++ (new ++ post)) :: c.map Prod.snd) =
        codesOf (a.map Prod.snd ++ .data (pre ++ (mid ++ post)) :: c.map Prod.snd) := beside rfl
      refine ⟨ho, by rw [e1, e2]; exact h.funcs, ?_, ?_⟩
      · intro n hn'
        rw [hn] at hn'
        have h1 := h1 n hn'
        have h2 := hok (by rw [hn']; simp)
        rw [datas_lone ho]
        simp only [List.length_append] at h1 ⊢; omega
      · rw [e2, hn, ← hd]; exact h.dataIdx

theorem placed_typeIdxs : Placed entFuncTypes .function where
  kind _ := rfl
  contents h hk := by cases h <;> first | exact ⟨_, rfl, by assumption⟩ | cases hk
  wrapped h := .function h
  unamb := unambiguous_typeIdx
  gets h := by
    simp only [assemble, entFuncTypes, List.map_append, List.map_cons] at h ⊢
    rw [zip_types h.funcs]
    exact typeIdxs_lone h.order
  puts {a z l c z' l'} h h' := by
    simp only [List.map_append, List.map_cons] at h h'
    simp only [assemble, entFuncTypes, List.map_append, List.map_cons, Module.mk.injEq]
    refine ⟨?_, ?_, ?_, ?_, ?_, ?_, ?_, ?_, ?_, ?_, ?_, ?_, ?_, ?_, ?_, ?_⟩ <;> try splices
    have e : codesOf (a.map Prod.snd ++ .function l' :: c.map Prod.snd) =
      codesOf (a.map Prod.snd ++ .function l :: c.map Prod.snd) := beside rfl
    have h1 := h.funcs
    have h2 := h'.funcs
    rw [typeIdxs_lone h'.order, e] at h2
    rw [e, typeIdxs_lone h'.order]
    exact (zip_retype _ _ _ h1 h2).symm
  good {a z c z' pre mid new post} h := by
    simp only [assemble, entFuncTypes, List.map_append, List.map_cons] at h ⊢
    have ho : List.Sublist (nonCustom (a.map Prod.snd ++ .function (pre ++ (new ++ post)) :: c.map Prod.snd)) sectionOrder := by
      rw [sameKinds (s := .function (pre ++ (mid ++ post))) (s' := .function (pre ++ (new ++ post))) rfl]; exact h.order
    have e1 : codesOf (a.map Prod.snd ++ .function (pre ++ (new ++ post)) :: c.map Prod.snd) =
      codesOf (a.map Prod.snd ++ .function (pre ++ (mid ++ post)) :: c.map Prod.snd) := beside rfl
    have e2 : datasOf (a.map Prod.snd ++ .function (pre ++ (new ++ post)) :: c.map Prod.snd) =
      datasOf (a.map Prod.snd ++ .function (pre ++ (mid ++ post)) :: c.map Prod.snd) := beside rfl
    have e3 : dataCountOf (a.map Prod.snd ++ .function (pre ++ (new ++ post)) :: c.map Prod.snd) =
      dataCountOf (a.map Prod.snd ++ .function (pre ++ (mid ++ post)) :: c.map Prod.snd) := congrArg List.head? (besideOpt rfl)
    have h1 := h.funcs
    rw [typeIdxs_lone h.order] at h1
    constructor
    · intro hw
      have h2 := hw.funcs
      rw [typeIdxs_lone ho, e1, ← h1] at h2
      simp only [List.length_append] at h2; omega
    · intro hok
      refine ⟨ho, ?_, by rw [e2, e3]; exact h.dataCount, by rw [e1, e3]; exact h.dataIdx⟩
      rw [typeIdxs_lone ho, e1, ← h1]
      simp only [List.length_append]; omega

theorem placed_codes : Placed entCodes .code where
  kind _ := rfl
  contents h hk := by cases h <;> first | exact ⟨_, rfl, by assumption⟩ | cases hk
  wrapped h := .code h
  unamb := c35_entries.2.2.2.2.2.1
  gets h := by
    simp only [assemble, entCodes, List.map_append, List.map_cons] at h ⊢
    rw [zip_codes h.funcs]
    exact codes_lone h.order
  puts {a z l c z' l'} h h' := by
    simp only [List.map_append, List.map_cons] at h h'
    simp only [assemble, entCodes, List.map_append, List.map_cons, Module.mk.injEq]
    refine ⟨?_, ?_, ?_, ?_, ?_, ?_, ?_, ?_, ?_, ?_, ?_, ?_, ?_, ?_, ?_, ?_⟩ <;> try splices
    have e : typeIdxsOf (a.map Prod.snd ++ .code l' :: c.map Prod.snd) =
      typeIdxsOf (a.map Prod.snd ++ .code l :: c.map Prod.snd) := beside rfl
    have h1 := h.funcs
    have h2 := h'.funcs
    rw [codes_lone h'.order, e] at h2
    rw [e, codes_lone h'.order]
    exact (zip_recode _ _ _ h1 h2).symm
  good {a z c z' pre mid new post} h := by
    simp only [assemble, entCodes, List.map_append, List.map_cons] at h ⊢
    have ho : List.Sublist (nonCustom (a.map Prod.snd ++ .code (pre ++ (new ++ post)) :: c.map Prod.snd)) sectionOrder := by
      rw [sameKinds (s := .code (pre ++ (mid ++ post))) (s' := .code (pre ++ (new ++ post))) rfl]; exact h.order
    have e1 : typeIdxsOf (a.map Prod.snd ++ .code (pre ++ (new ++ post)) :: c.map Prod.snd) =
      typeIdxsOf (a.map Prod.snd ++ .code (pre ++ (mid ++ post)) :: c.map Prod.snd) := beside rfl
    have e2 : datasOf (a.map Prod.snd ++ .code (pre ++ (new ++ post)) :: c.map Prod.snd) =
      datasOf (a.map Prod.snd ++ .code (pre ++ (mid ++ post)) :: c.map Prod.snd) := beside rfl
    have e3 : dataCountOf (a.map Prod.snd ++ .code (pre ++ (new ++ post)) :: c.map Prod.snd) =
      dataCountOf (a.map Prod.snd ++ .code (pre ++ (mid ++ post)) :: c.map Prod.snd) := congrArg List.head? (besideOpt rfl)
    have h1 := h.funcs
    have h3 := h.dataIdx
    rw [codes_lone h.order] at h1 h3
    constructor
    · intro hw
      have h2 := hw.funcs
      have h4 := hw.dataIdx
      rw [codes_lone ho, e1, h1] at h2
      rw [codes_lone ho, e3] at h4
      refine ⟨by simp only [List.length_append] at h2; omega, ?_⟩
      rintro ⟨x, hx, hi⟩
      exact h4 ⟨x, by simp [hx], hi⟩
    · rintro ⟨hok, hd⟩
      refine ⟨ho, ?_, by rw [e2, e3]; exact h.dataCount, ?_⟩
      · rw [codes_lone ho, e1, h1]
        simp only [List.length_append]; omega
      · rw [codes_lone ho, e3]
        rintro ⟨x, hx, hi⟩
        simp only [List.mem_append] at hx
        rcases hx with hx | hx | hx
        · exact h3 ⟨x, by simp [hx], hi⟩
        · exact hd ⟨x, hx, hi⟩
        · exact h3 ⟨x, by simp [hx], hi⟩

end Wadec
