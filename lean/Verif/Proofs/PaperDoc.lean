/-
The sections of the XML file of a document have the definitions of pages of their records.
-/
import Verif.Proofs.PageRecords
set_option linter.unusedSimpArgs false
set_option linter.unusedVariables false
set_option autoImplicit false
namespace Hwp
open Spec

/-! ### Trees -/

/-- The sections one after the other. -/
def sectionForest {S : Type} (B : S → Forest ModelItem) : List S → Forest ModelItem
  | [] => .nil
  | s :: ss => (B s).append (sectionForest B ss)

theorem sectionForest_events {S : Type} (B : S → Forest ModelItem) : ∀ ss : List S, eventsOf (sectionForest B ss) = ss.flatMap fun s => eventsOf (B s)
  | [] => rfl
  | s :: ss => by rw [sectionForest, eventsOf_append, sectionForest_events B ss, List.flatMap_cons]

/-- The element of a model. -/
def ElementOf (env : XmlEnv) (m : ModelItem) (as : List (PyStr × PyStr)) : Prop :=
  ∃ p attrs kids, startModel env (withId p m) = .ofList (.start (lit m.model) attrs :: kids) ∧ as = attrs.map fun a => (a.1, noNul a.2)

theorem shown_roots {env : XmlEnv} (F : Item → ModelItem) (t : String) : ∀ (g : Forest Item) (C : Forest XNode), Shown env (g.map F) C →
    List.Forall₂ (fun a x => ElementOf env (F a) x.1) (g.roots.filter fun a => (F a).model == t) (entries t C)
  | .nil, C, h => by
    rw [show C = .nil from h]
    exact .nil
  | .node a cs sibs, C, h => by
    obtain ⟨p, attrs, kids, K, C', S, h1, -, -, -, -, h2, rfl⟩ := h
    have ih := shown_roots F t sibs S h2
    simp only [Forest.roots, List.filter_cons, entries, lit_eq, beq_iff_eq]
    split
    · exact .cons ⟨p, attrs, kids, h1, rfl⟩ ih
    · exact ih

theorem entries_append' (t : String) : ∀ f g : Forest XNode, entries t (f.append g) = entries t f ++ entries t g
  | .nil, g => rfl
  | .node (.text _) cs sibs, g => by simp [Forest.append, entries, entries_append' t sibs g]
  | .node (.elem n as) cs sibs, g => by simp [Forest.append, entries, entries_append' t sibs g]

theorem root_start : ∀ (g : Forest Item) {a : Item}, a ∈ g.roots → .start a ∈ eventsOf g
  | .nil, a, h => by cases h
  | .node b cs sibs, a, h => by
    rcases List.mem_cons.1 h with rfl | h
    · simp [eventsOf]
    · simp [eventsOf, root_start sibs h]

/-! ### Items -/

theorem derived_page {ms : List (PModel Fields)} {ctx : DCtx} {a : Item} (h : Derived (ms.mapIdx itemOf) a) :
    ((concItem ms ctx a).model == "PageDef") = pageItem ms a := by
  have hrec : a ∈ ms.mapIdx itemOf → ((concItem ms ctx a).model == "PageDef") = pageItem ms a := by
    intro ha
    obtain ⟨i, m, hm, rfl⟩ := mem_items ha
    rw [concItem_itemOf hm]
    have := pageItem_itemOf hm
    cases e : pageItem ms (itemOf i m) with
    | true => simpa [e] using this
    | false => simpa [e] using this
  cases a with
  | sectionDef o t =>
    obtain ⟨o', h'⟩ := h
    obtain ⟨i, m, hm, e⟩ := mem_items h'
    obtain ⟨h1, -, rfl⟩ := itemOf_sectionDef e.symm
    cases o <;> simp [concItem, recordItem, contentAt, hm, h1, pageItem]
  | tableBody o t =>
    obtain ⟨o', h'⟩ := h
    obtain ⟨i, m, hm, e⟩ := mem_items h'
    obtain ⟨h1, -, rfl⟩ := itemOf_tableBody e.symm
    cases o <;> simp [concItem, recordItem, contentAt, hm, h1, pageItem]
  | lineSeg l =>
    obtain ⟨o, k⟩ := l
    cases o <;> simp [concItem, pageItem]
  | text s sh l => simp [concItem, pageItem]
  | controlChar code kind sh => simp [concItem, pageItem]
  | columnSet => simp [concItem, pageItem]
  | tableRow => simp [concItem, pageItem]
  | paraText c t => exact absurd h (by simp [Derived])
  | paraCharShape c t => exact absurd h (by simp [Derived])
  | paraLineSeg c t => exact absurd h (by simp [Derived])
  | paraRangeTag t => exact absurd h (by simp [Derived])
  | paragraph n t => exact hrec h
  | tableCell t => exact hrec h
  | listHeader c t => exact hrec h
  | field c t => exact hrec h
  | tableControl t => exact hrec h
  | gshapeControl t => exact hrec h
  | control c t => exact hrec h
  | shapeComponent t => exact hrec h
  | other c t => exact hrec h

/-! ### Records -/

theorem page_attr {env : XmlEnv} {ver : Version} {rd : ModelReader Fields} (hrd : ReadsDecls ver rd) {rs : Gen Record} {i : Nat} {m : PModel Fields}
    (hm : (parseModels rd rs).out[i]? = some m) (ht : m.type = "PageDef") {as : List (PyStr × PyStr)}
    (hx : ElementOf env ⟨m.type, m.content, ⟨some ver, none⟩⟩ as) (name : String) (t : DTy) (hty : sureTy name Decl.PageDef = some t) :
    ∃ acc v, fieldOf name m.content = some v ∧ Shaped ⟨some ver, none⟩ t acc v ∧
      ∀ (key : String) (w : PyStr), (key.toList.map Char.toNat, w) ∈ hyphens (showTy env ⟨some ver, none⟩ name t acc v).1 → attrOf as key = some (noNul w) := by
  obtain ⟨p, attrs, kids, hs, rfl⟩ := hx
  have hid : withId p (⟨m.type, m.content, ⟨some ver, none⟩⟩ : ModelItem) = ⟨m.type, m.content, ⟨some ver, none⟩⟩ := by
    unfold withId
    rw [show idNameOf m.type = none from by rw [ht]; rfl]
  rw [hid] at hs
  obtain ⟨parts, plain, h1, h2, h3, h4, -⟩ := Props.C71_element_of_record env ver rd hrd rs i m hm (by rw [ht]; decide) (.inl (by rw [ht]; decide)) []
    ⟨by simp, by simp, by simp, by simp⟩
  have hD : classChain m.type = [Decl.PageDef] := by rw [ht]; rfl
  rw [hD] at h1 h3 h4
  obtain ⟨fs, rfl, hfs⟩ : ∃ fs, parts = [fs] ∧ FieldsOf ⟨some ver, none⟩ Decl.PageDef [] fs := by
    match parts, h1 with
    | [fs], h1 => exact ⟨fs, rfl, h1.1⟩
    | [], h1 => simp [PartsOf] at h1
    | _ :: _ :: _, h1 => simp [PartsOf] at h1
  obtain ⟨rfl, rfl⟩ : fs = m.content ∧ plain = [] := by
    rcases h2 with ⟨h2, h5⟩ | ⟨h2, -⟩
    · exact ⟨by rw [h2]; simp, h5⟩
    · exact absurd h2 (by rw [ht]; decide)
  rw [List.append_nil] at h3
  have e := ofList_injective (hs.symm.trans h3)
  simp only [List.cons.injEq, XEv.start.injEq, true_and] at e
  simp only [showParts, List.append_nil, showPlain, List.map_nil] at e h4
  obtain ⟨rfl, rfl⟩ := e
  obtain ⟨acc, v, e1, e2, e3⟩ := sure_field env ⟨some ver, none⟩ name t Decl.PageDef [] m.content hfs (by decide +kernel) hty
  refine ⟨acc, v, e1, e2, ?_⟩
  intro key w hw
  refine attrOf_mem ?_ ?_
  · rw [List.map_map]
    exact h4.2.1
  · rw [List.mem_map]
    refine ⟨(lit key, w), ?_, rfl⟩
    simp only [hyphens, List.mem_map] at hw ⊢
    obtain ⟨q, hq, e⟩ := hw
    exact ⟨q, e3 q hq, e⟩

theorem page_int {env : XmlEnv} {ver : Version} {rd : ModelReader Fields} (hrd : ReadsDecls ver rd) {rs : Gen Record} {i : Nat} {m : PModel Fields}
    (hm : (parseModels rd rs).out[i]? = some m) (ht : m.type = "PageDef") {as : List (PyStr × PyStr)}
    (hx : ElementOf env ⟨m.type, m.content, ⟨some ver, none⟩⟩ as) (name key : String) (p : Prim) (hw : p ≠ .WCHAR) (hty : sureTy name Decl.PageDef = some (.prim (.int p)))
    (hk : lit key = (lit name).map fun c => if c = 0x5F then 0x2D else c) (n : Nat) (hn : intField name m.content = some (n : Int)) :
    attrOf as key = some (Spec.decimal n) ∧ InRange p n := by
  obtain ⟨acc, v, h1, h2, h3⟩ := page_attr hrd hm ht hx name _ hty
  obtain ⟨k, rfl, hr⟩ := int_of_shaped h2
  have hk' : k = (n : Int) := by simpa [intField, h1] using hn
  subst hk'
  have hd : noNul (Spec.decimal n) = Spec.decimal n := by rw [decimal_nat, noNul_natStr]
  refine ⟨?_, hr⟩
  rw [← hd]
  refine h3 key _ ?_
  have : showPrim env (.int p) (.int n) = Spec.decimal n := by cases p <;> first | rfl | exact absurd rfl hw
  simp only [showTy, hyphens, List.map_cons, List.map_nil, this, List.mem_singleton]
  exact Prod.ext hk rfl

/-- Every length is one a record can have. -/
def Spec.Paper.Fits (p : Paper) : Prop := ∀ n ∈ [p.width, p.height, p.left, p.right, p.top, p.bottom, p.header, p.footer], n < 2 ^ 32

/-- The element of a definition of pages says what the record says. -/
theorem page_element {env : XmlEnv} {ver : Version} {rd : ModelReader Fields} (hrd : ReadsDecls ver rd) {rs : Gen Record} {i : Nat} {m : PModel Fields}
    (hm : (parseModels rd rs).out[i]? = some m) (ht : m.type = "PageDef") {as : List (PyStr × PyStr)}
    (hx : ElementOf env ⟨m.type, m.content, ⟨some ver, none⟩⟩ as) (p : Paper) (hp : RecordPaper m p) :
    attrOf as "orientation" = some (lit (if p.landscape then "landscape" else "portrait")) ∧
    ∀ x ∈ [("width", p.width), ("height", p.height), ("left-offset", p.left), ("right-offset", p.right), ("top-offset", p.top),
      ("bottom-offset", p.bottom), ("header-offset", p.header), ("footer-offset", p.footer)], attrOf as x.1 = some (Spec.decimal (x.2 : Nat)) ∧ x.2 < 2 ^ 32 := by
  refine ⟨?_, ?_⟩
  · obtain ⟨k, hk, hl⟩ := hp.turned
    obtain ⟨acc, v, h1, h2, h3⟩ := page_attr hrd hm ht hx "attr" (.flags Decl.PageDefFlags) rfl
    obtain ⟨n, rfl⟩ : ∃ n, v = .leaf (.flags Decl.PageDefFlags n) := by
      cases v with
      | leaf x => cases x <;> simp [Shaped] at h2; exact ⟨_, by rw [h2.1]⟩
      | _ => simp [Shaped] at h2
    have hk' : n = k := by simpa [flagsField, h1] using hk
    subst hk'
    have key := h3 "orientation" _ (List.mem_cons_of_mem _ List.mem_cons_self)
    rw [key]
    dsimp only
    rw [show bitsNumber n (Decl.bitsE 0 0 (enumOf ["PORTRAIT", "LANDSCAPE"]) "orientation").lsb
      ((Decl.bitsE 0 0 (enumOf ["PORTRAIT", "LANDSCAPE"]) "orientation").msb + 1 -
        (Decl.bitsE 0 0 (enumOf ["PORTRAIT", "LANDSCAPE"]) "orientation").lsb) = n % 2 from (bitsNumber_eq n 0 1).trans (by simp)]
    rw [hl, Nat.testBit_zero]
    rcases Nat.mod_two_eq_zero_or_one n with e | e <;> rw [e] <;> decide +kernel
  · have L := hp.lengths
    simp only [List.mem_cons, List.not_mem_nil, or_false, forall_eq_or_imp, forall_eq] at L ⊢
    obtain ⟨l1, l2, l3, l4, l5, l6, l7, l8⟩ := L
    have r : ∀ n : Nat, InRange .HWPUNIT (n : Int) → n < 2 ^ 32 := by
      intro n h
      have : (n : Int) < 2 ^ 32 := h.2
      exact_mod_cast this
    have i : ∀ {P : Prop} {n : Nat}, P ∧ InRange .HWPUNIT (n : Int) → P ∧ n < 2 ^ 32 := fun h => ⟨h.1, r _ h.2⟩
    exact ⟨i <| page_int hrd hm ht hx "width" _ .HWPUNIT (by decide) rfl (by decide +kernel) _ l1,
      i <| page_int hrd hm ht hx "height" _ .HWPUNIT (by decide) rfl (by decide +kernel) _ l2,
      i <| page_int hrd hm ht hx "left_offset" _ .HWPUNIT (by decide) rfl (by decide +kernel) _ l3,
      i <| page_int hrd hm ht hx "right_offset" _ .HWPUNIT (by decide) rfl (by decide +kernel) _ l4,
      i <| page_int hrd hm ht hx "top_offset" _ .HWPUNIT (by decide) rfl (by decide +kernel) _ l5,
      i <| page_int hrd hm ht hx "bottom_offset" _ .HWPUNIT (by decide) rfl (by decide +kernel) _ l6,
      i <| page_int hrd hm ht hx "header_offset" _ .HWPUNIT (by decide) rfl (by decide +kernel) _ l7,
      i <| page_int hrd hm ht hx "footer_offset" _ .HWPUNIT (by decide) rfl (by decide +kernel) _ l8⟩

/-- The element of a section definition has its number, and no children but those of the records below it. -/
theorem section_element {env : XmlEnv} {ver : Version} {rd : ModelReader Fields} (hrd : ReadsDecls ver rd) {rs : Gen Record} {i : Nat} {m : PModel Fields}
    (hm : (parseModels rd rs).out[i]? = some m) (ht : m.type = "SectionDef") (n : Nat) (p : List (Ev ModelItem)) (attrs : List (PyStr × PyStr)) (kids : List XEv)
    (hs : startModel env (withId p ⟨"SectionDef", setField "section_id" (.leaf (.int n)) m.content, ⟨some ver, none⟩⟩) = .ofList (.start (lit "SectionDef") attrs :: kids)) :
    attrOf (attrs.map fun a => (a.1, noNul a.2)) "section-id" = some (Spec.decimal n) ∧ kids = [] := by
  have hid : withId p (⟨"SectionDef", setField "section_id" (.leaf (.int n)) m.content, ⟨some ver, none⟩⟩ : ModelItem) =
      ⟨"SectionDef", setField "section_id" (.leaf (.int n)) m.content, ⟨some ver, none⟩⟩ := rfl
  have hfresh : "section_id" ∉ m.content.map (·.1) := by
    intro hmem
    obtain ⟨c, hc, hn⟩ := (Props.C68_fields ver rd hrd rs m (List.mem_of_getElem? hm)).2.2 _ hmem
    have : ∀ c ∈ memberClasses "SectionDef", "section_id" ∉ (membersOf c).names := by decide +kernel
    exact this c (ht ▸ hc) hn
  rw [hid, setField_new _ _ _ hfresh] at hs
  obtain ⟨parts, plain, h1, h2, h3, h4, -⟩ := Props.C71_element_of_record env ver rd hrd rs i m hm (by rw [ht]; decide) (.inl (by rw [ht]; decide)) _
    (idsFor_one (k := "section_id") n (by decide) (by rw [ht]; decide))
  have hpl : plain = [] := by
    rcases h2 with ⟨h2, h5⟩ | ⟨h2, -⟩
    · exact h5
    · exact absurd h2 (by rw [ht]; decide)
  subst hpl
  rw [ht] at h3 h4
  have e := ofList_injective (hs.symm.trans h3)
  simp only [List.cons.injEq, XEv.start.injEq, true_and] at e
  obtain ⟨rfl, rfl⟩ := e
  refine ⟨?_, ?_⟩
  · refine attrOf_mem ?_ ?_
    · rw [List.map_map]
      exact h4.2.1
    · rw [List.mem_map]
      refine ⟨(lit "section-id", Spec.decimal n), ?_, by rw [decimal_nat, noNul_natStr]⟩
      simp only [hyphens, List.map_append, List.mem_append, List.nil_append]
      refine .inr ?_
      simp only [showPlain, List.map_cons, List.map_nil, List.mem_singleton]
      exact Prod.ext (show lit "section-id" = (lit "section_id").map (fun c => if c = 95 then 45 else c) by decide +kernel) rfl
  · have hk : ∀ (mss : List DMembers) (ps : List Fields), (∀ D ∈ mss, primMembers D = true) → (showParts env ⟨some ver, none⟩ mss ps).2 = [] := by
      intro mss
      induction mss with
      | nil => intro ps _; simp [showParts]
      | cons D mss ih =>
        intro ps h
        cases ps with
        | nil => simp [showParts]
        | cons f ps => simp only [showParts, prim_kids env _ D [] f (h D (by simp)), ih ps (fun D hD => h D (by simp [hD])), List.nil_append]
    exact hk _ _ (by decide +kernel)

/-! ### The document -/

theorem section_entries {S : Type} {env : XmlEnv} (m : S → ModelItem) (g : S → Forest ModelItem) (Q : S → List (PyStr × PyStr) × Forest XNode → Prop) :
    ∀ (ss : List S) (T : Forest XNode), Shown env (sectionForest (fun s => .node (m s) (g s) .nil) ss) T → (∀ s ∈ ss, (m s).model = "SectionDef") →
    (∀ s ∈ ss, ∀ p attrs kids K C, startModel env (withId p (m s)) = .ofList (.start (lit "SectionDef") attrs :: kids) → BalX (joined kids) K → Shown env (g s) C →
      Q s (attrs.map (fun a => (a.1, noNul a.2)), K.append C)) → List.Forall₂ Q ss (entries "SectionDef" T)
  | [], T, h, _, _ => by
    rw [show T = .nil from h]
    exact .nil
  | s :: ss, T, h, hm, hQ => by
    simp only [sectionForest, Forest.append] at h
    obtain ⟨p, attrs, kids, K, C, S, h1, -, -, h2, h3, h4, rfl⟩ := h
    have e := hm s (by simp)
    rw [e] at h1
    simp only [entries, e, if_true, List.singleton_append]
    exact .cons (hQ s (by simp) p attrs kids K C h1 h2 h3) (section_entries m g Q ss S h4 (fun s hs => hm s (by simp [hs])) fun s hs => hQ s (by simp [hs]))

/-- The sections of the file of a document: each has its number, and the paper its records say. -/
theorem papers_of_records (env : XmlEnv) (rd : ModelReader Fields) (filetime : Nat → PyStr) (d : DocSource)
    (hrd : ReadsDecls d.version rd) (h : ProperDocument rd d) (evs : List XEv) (he : documentXml env rd filetime d = .ofList evs) :
    ∃ (as bs : List (PyStr × PyStr)) (D B : Forest XNode), entries "HwpDoc" (xmlTree (joined evs)) = [(as, D)] ∧ entries "BodyText" D = [(bs, B)] ∧
      List.Forall₂ (fun (s : Nat × Bytes) x => attrOf x.1 "section-id" = some (Spec.decimal s.1) ∧
        ∀ f page p, StreamTree rd s.2 f → SectionPaper f page → RecordPaper page p → PaperIs x p ∧ p.Fits) d.sections (entries "SectionDef" B) := by
  obtain ⟨f, body, sorted, hf, hsec, -, hev, hshow⟩ := document_parts rd filetime d hrd h
  obtain ⟨es, X, g1, g2, g3, -⟩ := document_shown env rd filetime d hrd h
  obtain rfl : es = _ := ofList_injective (g1.symm.trans hev)
  obtain rfl : X = evs := ofList_injective (g2.symm.trans he)
  obtain ⟨a0, a1, a2, a3, T1, T2, T3, pre, Y, post, q, h1, h2, h3, h4, -⟩ := doc_tree env d.version h.version _ (docinfoEvs d f)
    (d.sections.flatMap fun s => eventsOf ((body s).map (concItem (streamModels rd s.2).out ⟨some d.version, none⟩))) _ rfl
    (treelike_element _ (treelike_flatMap fun t _ => treelike_element _ (treelike_flatMap fun p _ => property_treelike filetime p)))
    ⟨_, (docinfo_part env rd d hrd h f hf).2.2⟩ (treelike_flatMap fun s _ => treelike_eventsOf _) _ g3 (hshow env).1
  let F := fun s : Nat × Bytes => concItem (streamModels rd s.2).out ⟨some d.version, none⟩
  let root := fun s : Nat × Bytes => match body s with
    | .node a _ _ => F s a
    | .nil => ⟨"SectionDef", [], ⟨none, none⟩⟩
  let kids := fun s : Nat × Bytes => match body s with
    | .node _ cs _ => cs
    | .nil => .nil
  have hflat : (d.sections.flatMap fun s => eventsOf ((body s).map (concItem (streamModels rd s.2).out ⟨some d.version, none⟩))) =
      eventsOf (sectionForest (fun s => .node (root s) ((kids s).map (F s)) .nil) d.sections) := by
    rw [sectionForest_events]
    apply List.flatMap_congr
    intro s hs
    obtain ⟨f, hf, ⟨i, t, g, hroot, -⟩, -⟩ := hsec s hs
    simp only [root, kids, hroot, F, Forest.map]
  rw [hflat] at h2
  obtain ⟨T, hT, hS, -⟩ := shown_forest env _ q Y (by
    intro a ha
    rw [← hflat] at ha
    refine ⟨(hshow env).1 a ?_, ?_⟩
    · simp only [documentElement, element]
      simp only [List.mem_cons, List.mem_append]
      exact .inr (.inl (.inr (.inr (.inl ha))))
    · obtain ⟨s, hs, ha⟩ := List.mem_flatMap.1 ha
      obtain ⟨x, h1, rfl⟩ := start_map _ _ _ ha
      obtain ⟨f, hf, -, -, hb⟩ := hsec s hs
      exact (section_heard env rd d.version hrd _ s.2 f hf (h.sectionData s hs) _ hb x h1).1) h2
  obtain rfl := bal_unique h3 hT
  refine ⟨a0, a3, .node (.elem (lit "HwpSummaryInfo") a1) T1 (.node (.elem (lit "DocInfo") a2) T2 (.node (.elem (lit "BodyText") a3) T3 .nil)), T3,
    by rw [h4]; simp [entries], by simp [entries, lit_eq], ?_⟩
  refine section_entries root (fun s => (kids s).map (F s)) _ d.sections T3 hS ?_ ?_
  · intro s hs
    obtain ⟨f, hf, ⟨i, t, g, hroot, -⟩, -⟩ := hsec s hs
    simp only [root, hroot, F, concItem]
  · intro s hs p attrs ks K C e1 e2 e3
    obtain ⟨f, hf, hsb, hp, hb⟩ := hsec s hs
    have hsb' := hsb
    obtain ⟨i, t, g, hroot, hmem, -⟩ := hsb'
    have r1 : root s = F s (.sectionDef (some s.1) t) := by simp only [root, hroot]
    have r2 : kids s = g := by simp only [kids, hroot]
    rw [r1] at e1
    rw [r2] at e3
    obtain ⟨m, hm, hmt⟩ : ∃ m, (streamModels rd s.2).out[t]? = some m ∧ m.type = "SectionDef" := by
      have := section_derived rd _ s.2 f hf _ hb (.sectionDef (some s.1) t) (by rw [hroot]; simp [eventsOf])
      obtain ⟨o', h'⟩ := this
      obtain ⟨i, m, hm, e⟩ := mem_items h'
      obtain ⟨h1, -, rfl⟩ := itemOf_sectionDef e.symm
      exact ⟨m, hm, h1⟩
    have hm' := hm
    rw [tree_parse hf] at hm'
    obtain ⟨k1, rfl⟩ := section_element hrd hm' hmt s.1 p attrs ks (by simpa [F, concItem, contentAt, hm] using e1)
    refine ⟨k1, ?_⟩
    intro f' page paper hf' hsp hrp
    obtain rfl := streamTree_unique hf' hf
    obtain ⟨t', g', j, hroot', hj, hpt, hroots⟩ := section_page (fun p hp => tree_model hf p hp) hsp s.1 (body s) hp hsb hb
    rw [hroot] at hroot'
    simp only [Forest.node.injEq, Item.sectionDef.injEq, true_and, and_true] at hroot'
    obtain ⟨rfl, rfl⟩ := hroot'
    obtain rfl : K = .nil := bal_unique e2 .nil
    have hr := shown_roots (F s) "PageDef" g C e3
    have hfil : (g.roots.filter fun a => (F s a).model == "PageDef") = [.other (modelNames.idxOf "PageDef") j] := by
      rw [← hroots]
      apply List.filter_congr
      intro a ha
      refine derived_page (section_derived rd _ s.2 f' hf _ hb a ?_)
      rw [hroot]
      simp only [eventsOf, List.mem_cons, List.mem_append]
      exact .inr (.inl (root_start g ha))
    rw [hfil] at hr
    change PaperIs (_, C) paper ∧ paper.Fits
    generalize hE : entries "PageDef" C = E at hr
    cases hr with
    | @cons _ x _ _ hx hr =>
      cases hr
      have hx' : ElementOf env ⟨page.type, page.content, ⟨some d.version, none⟩⟩ x.1 := by
        simpa [F, concItem, recordItem, contentAt, hj] using hx
      rw [tree_parse hf] at hj
      obtain ⟨p1, p2⟩ := page_element hrd hj hpt hx' paper hrp
      refine ⟨⟨⟨_, _, hE, p1, fun x hx => (p2 x hx).1⟩⟩, ?_⟩
      simp only [List.mem_cons, List.not_mem_nil, or_false, forall_eq_or_imp, forall_eq] at p2
      simp only [Paper.Fits, List.mem_cons, List.not_mem_nil, or_false, forall_eq_or_imp, forall_eq]
      obtain ⟨l1, l2, l3, l4, l5, l6, l7, l8⟩ := p2
      exact ⟨l1.2, l2.2, l3.2, l4.2, l5.2, l6.2, l7.2, l8.2⟩

/-- The sections of the file of a document have the papers its records say. -/
theorem papers_shown (env : XmlEnv) (rd : ModelReader Fields) (filetime : Nat → PyStr) (d : DocSource)
    (hrd : ReadsDecls d.version rd) (h : ProperDocument rd d) (evs : List XEv) (he : documentXml env rd filetime d = .ofList evs) (papers : List Paper)
    (hp : PapersAre rd d papers) : ∃ secs, SectionsAre (xmlTree (joined evs)) secs ∧ List.Forall₂ (fun x p => PaperIs x p ∧ p.Fits) secs papers := by
  obtain ⟨as, bs, D, B, h1, h2, h3⟩ := papers_of_records env rd filetime d hrd h evs he
  have hlen := h3.length_eq
  refine ⟨entries "SectionDef" B, ⟨⟨as, D, bs, B, h1, h2, rfl⟩, ?_⟩, ?_⟩
  · intro i sec hi
    obtain ⟨s, hs, g, -⟩ := forall₂_get h3.flip i sec hi
    have := congrArg (fun l => l[i]?) hp.numbered
    simp only [List.getElem?_map, hs, Option.map_some] at this
    have hl : i < d.sections.length := (List.getElem?_eq_some_iff.1 hs).1
    rw [List.getElem?_range hl, Option.some.injEq] at this
    rw [g, this]
  · rw [List.forall₂_iff_get]
    refine ⟨by rw [← hlen, hp.count], ?_⟩
    intro i hi hi'
    obtain ⟨s, hs, -, g⟩ := forall₂_get h3.flip i _ (List.getElem?_eq_getElem hi)
    obtain ⟨f, page, k1, k2, k3⟩ := hp.papers i s _ hs (List.getElem?_eq_getElem hi')
    exact g f page _ k1 k2 k3

end Hwp
