/-
The tables of the XML file of a document are those of the records of `DocInfo`.
-/
import Verif.Proofs.Pictures
import Verif.Proofs.Css
import Verif.Spec.InfoRecords
import Mathlib.Data.List.Forall2
set_option linter.unusedSimpArgs false
set_option linter.unusedVariables false
set_option autoImplicit false
namespace Hwp
open Spec

/-! ### Elements by name -/

theorem elementsNamed_append (name : String) (A B : Forest XNode) : elementsNamed name (A.append B) = elementsNamed name A ++ elementsNamed name B := by
  induction A with
  | nil => rfl
  | node a cs sibs _ ih => cases a <;> simp [Forest.append, elementsNamed, ih]

theorem entries_append (name : String) (A B : Forest XNode) : entries name (A.append B) = entries name A ++ entries name B := by
  induction A with
  | nil => rfl
  | node a cs sibs _ ih => cases a <;> simp [Forest.append, entries, ih]

theorem entries_elements (name : String) (T : Forest XNode) : (entries name T).Sublist (elementsNamed name T) := by
  induction T with
  | nil => exact .refl _
  | node a cs sibs ih1 ih2 =>
    cases a with
    | text t => exact ih2
    | elem n as =>
      simp only [entries, elementsNamed, List.append_assoc]
      exact .append (.refl _) (.trans ih2 (List.sublist_append_right _ _))

/-- What is in an entry is in the whole. -/
theorem entry_elements (name other : String) (T : Forest XNode) : ∀ x ∈ entries other T, (elementsNamed name x.2).Sublist (elementsNamed name T) := by
  induction T with
  | nil => intro x hx; cases hx
  | node a cs sibs ih1 ih2 =>
    cases a with
    | text t => exact ih2
    | elem n as =>
      intro x hx
      simp only [entries, List.mem_append] at hx
      simp only [elementsNamed, List.append_assoc]
      rcases hx with hx | hx
      · split at hx
        · simp only [List.mem_singleton] at hx
          subst hx
          exact .trans (List.sublist_append_left _ _) (List.sublist_append_right _ _)
        · cases hx
      · exact .trans (ih2 x hx) (.trans (List.sublist_append_right _ _) (List.sublist_append_right _ _))

theorem every_elements {ok : PyStr → Bool} (name : String) (h : ok (lit name) = false) {K : Forest XNode} (hK : everyElem (fun n _ => ok n) K = true) :
    elementsNamed name K = [] := by
  induction K with
  | nil => rfl
  | node a cs sibs ih1 ih2 =>
    cases a with
    | text t => exact ih2 hK
    | elem n as =>
      simp only [everyElem, Bool.and_eq_true] at hK
      have hn : n ≠ lit name := by rintro rfl; rw [hK.1.1] at h; cases h
      simp only [elementsNamed, if_neg hn, ih1 hK.1.2, ih2 hK.2, List.nil_append]

theorem quiet_elements (name : String) (hl : lit name ∈ loudNames) {K : Forest XNode} (h : QuietTree K) : elementsNamed name K = [] :=
  every_elements (ok := fun n => decide (n ∉ loudNames)) name (by simpa using hl) h

theorem quiet_entries (name : String) (hl : lit name ∈ loudNames) {K : Forest XNode} (h : QuietTree K) : entries name K = [] :=
  List.sublist_nil.1 (quiet_elements name hl h ▸ entries_elements name K)

/-! ### The records of `DocInfo` -/

/-- The element of a record, with those of its fields and those of the records below it. -/
def NodeOf (env : XmlEnv) (ver : Version) (m : PModel Fields) (x : List (PyStr × PyStr) × Forest XNode) : Prop :=
  ∃ attrs kids K C, startModel env ⟨m.type, m.content, ⟨some ver, none⟩⟩ = .ofList (.start (lit m.type) attrs :: kids) ∧
    BalX (joined kids) K ∧ x = (attrs.map (fun a => (a.1, noNul a.2)), K.append C) ∧
    everyElem (fun n _ => decide (n ∈ modelNames.map lit) || decide (n ∉ loudNames)) C = true ∧ ∀ t, t ∉ modelNames → entries t C = []

theorem withId_table (p : List (Ev ModelItem)) (m : ModelItem) (h : m.model ∈ "IdMappings" :: tableTypes) : withId p m = m := by
  unfold withId
  have : idNameOf m.model = none := by
    simp only [tableTypes, List.mem_cons, List.not_mem_nil, or_false] at h
    rcases h with h | h | h | h | h <;> rw [h] <;> rfl
  rw [this]

theorem shown_every (env : XmlEnv) (ver : Version) (f : Forest (Nat × PModel Fields)) : ∀ T, Shown env (f.map (recItem ver)) T →
    (∀ p, .start p ∈ eventsOf f → p.2.type ∈ modelNames) →
    everyElem (fun n _ => decide (n ∈ modelNames.map lit) || decide (n ∉ loudNames)) T = true ∧ ∀ t, t ∉ modelNames → entries t T = [] := by
  induction f with
  | nil => intro T hT _; rw [hT]; exact ⟨rfl, fun _ _ => rfl⟩
  | node a cs sibs ih1 ih2 =>
    intro T hT hr
    obtain ⟨p, attrs, kids, K, C, S, hst, hsil, hkids, hK, hC, hS, rfl⟩ := hT
    have i1 := ih1 C hC fun p hp => hr p (by simp [eventsOf, hp])
    have i2 := ih2 S hS fun p hp => hr p (by simp [eventsOf, hp])
    have ha := hr a (by simp [eventsOf])
    have hq : everyElem (fun n _ => decide (n ∈ modelNames.map lit) || decide (n ∉ loudNames)) K = true := by
      refine bal_every hK (fun n => decide (n ∈ modelNames.map lit) || decide (n ∉ loudNames)) ?_
      intro n as hn
      obtain ⟨as', hn⟩ := joined_start hn
      simp [hsil n as' hn]
    have happ : ∀ A B : Forest XNode, everyElem (fun n _ => decide (n ∈ modelNames.map lit) || decide (n ∉ loudNames)) A = true →
        everyElem (fun n _ => decide (n ∈ modelNames.map lit) || decide (n ∉ loudNames)) B = true →
        everyElem (fun n _ => decide (n ∈ modelNames.map lit) || decide (n ∉ loudNames)) (A.append B) = true := by
      intro A B hA hB
      induction A with
      | nil => exact hB
      | node a cs sibs _ ih =>
        cases a with
        | text t => exact ih hA
        | elem n as =>
          simp only [Forest.append, everyElem, Bool.and_eq_true] at hA ⊢
          exact ⟨hA.1, ih hA.2⟩
    refine ⟨?_, ?_⟩
    · simp only [everyElem, Bool.and_eq_true]
      refine ⟨⟨?_, happ K C hq i1.1⟩, i2.1⟩
      have : lit (recItem ver a).model ∈ modelNames.map lit := List.mem_map_of_mem ha
      simp [this]
    · intro t ht
      have hne : lit (recItem ver a).model ≠ lit t := by
        rw [Ne, lit_eq]
        intro e
        have ha' : (recItem ver a).model ∈ modelNames := ha
        rw [e] at ha'
        exact ht ha'
      simp only [entries, if_neg hne, i2.2 t ht, List.nil_append]

theorem table_loud : ∀ t ∈ "IdMappings" :: tableTypes, lit t ∈ loudNames := by decide +kernel

theorem nodeOf_shown {env : XmlEnv} {ver : Version} {a : Nat × PModel Fields} {cs : Forest (Nat × PModel Fields)} {p : List (Ev ModelItem)}
    {attrs : List (PyStr × PyStr)} {kids : List XEv} {K C : Forest XNode}
    (hst : startModel env (withId p (recItem ver a)) = .ofList (.start (lit (recItem ver a).model) attrs :: kids)) (hK : BalX (joined kids) K)
    (hC : Shown env (cs.map (recItem ver)) C) (hr : ∀ p, .start p ∈ eventsOf cs → p.2.type ∈ modelNames) (ht : a.2.type ∈ "IdMappings" :: tableTypes) :
    NodeOf env ver a.2 (attrs.map (fun a => (a.1, noNul a.2)), K.append C) := by
  rw [withId_table _ _ ht] at hst
  obtain ⟨h1, h2⟩ := shown_every env ver cs C hC hr
  exact ⟨attrs, kids, K, C, hst, hK, rfl, h1, h2⟩

/-- The elements of the records of a type. -/
theorem shown_elements (env : XmlEnv) (ver : Version) (t : String) (ht : t ∈ "IdMappings" :: tableTypes) (f : Forest (Nat × PModel Fields)) : ∀ T,
    Shown env (f.map (recItem ver)) T → (∀ p, .start p ∈ eventsOf f → p.2.type ∈ modelNames) →
    List.Forall₂ (NodeOf env ver) (recordsOf t f) (elementsNamed t T) := by
  induction f with
  | nil => intro T hT _; rw [hT]; exact .nil
  | node a cs sibs ih1 ih2 =>
    intro T hT hr
    obtain ⟨p, attrs, kids, K, C, S, hst, hsil, hkids, hK, hC, hS, rfl⟩ := hT
    have i1 := ih1 C hC fun p hp => hr p (by simp [eventsOf, hp])
    have i2 := ih2 S hS fun p hp => hr p (by simp [eventsOf, hp])
    simp only [recordsOf, elementsNamed, elementsNamed_append, quiet_elements t (table_loud t ht) (silent_tree hK hsil), List.nil_append]
    by_cases e : a.2.type = t
    · have h1 : lit (recItem ver a).model = lit t := by rw [lit_eq]; exact e
      simp only [e, if_true, h1]
      exact List.rel_append (List.rel_append (.cons (nodeOf_shown hst hK hC (fun p hp => hr p (by simp [eventsOf, hp])) (e ▸ ht)) .nil) i1) i2
    · have h1 : lit (recItem ver a).model ≠ lit t := by rw [Ne, lit_eq]; exact e
      simp only [e, if_false, h1, List.nil_append]
      exact List.rel_append i1 i2

/-- The elements of the records at the top. -/
theorem shown_entries (env : XmlEnv) (ver : Version) (t : String) (ht : t ∈ "IdMappings" :: tableTypes) (f : Forest (Nat × PModel Fields)) : ∀ T,
    Shown env (f.map (recItem ver)) T → (∀ p, .start p ∈ eventsOf f → p.2.type ∈ modelNames) →
    List.Forall₂ (fun a x => NodeOf env ver a.1 x ∧ ∃ K C, x.2 = K.append C ∧ QuietTree K ∧ Shown env (a.2.map (recItem ver)) C ∧
      ∀ p, .start p ∈ eventsOf a.2 → p.2.type ∈ modelNames) (recordsAt t f) (entries t T) := by
  induction f with
  | nil => intro T hT _; rw [hT]; exact .nil
  | node a cs sibs ih1 ih2 =>
    intro T hT hr
    obtain ⟨p, attrs, kids, K, C, S, hst, hsil, hkids, hK, hC, hS, rfl⟩ := hT
    have i2 := ih2 S hS fun p hp => hr p (by simp [eventsOf, hp])
    have hcs : ∀ p, .start p ∈ eventsOf cs → p.2.type ∈ modelNames := fun p hp => hr p (by simp [eventsOf, hp])
    simp only [recordsAt, entries]
    by_cases e : a.2.type = t
    · have h1 : lit (recItem ver a).model = lit t := by rw [lit_eq]; exact e
      simp only [e, if_true, h1, List.singleton_append]
      exact .cons ⟨nodeOf_shown hst hK hC hcs (e ▸ ht), K, C, rfl, silent_tree hK hsil, hC, hcs⟩ i2
    · have h1 : lit (recItem ver a).model ≠ lit t := by rw [Ne, lit_eq]; exact e
      simp only [e, if_false, h1, List.nil_append]
      exact i2

/-- The table of `DocInfo`. -/
theorem info_table {env : XmlEnv} {ver : Version} {docinfo rows : Forest (Nat × PModel Fields)} {table : PModel Fields} (h : InfoTable docinfo table rows)
    {T2 : Forest XNode} (hT : Shown env (docinfo.map (recItem ver)) T2) (hr : ∀ p, .start p ∈ eventsOf docinfo → p.2.type ∈ modelNames) :
    ∃ ids T, entries "IdMappings" T2 = [(ids, T)] ∧ elementsNamed "IdMappings" T2 = [(ids, T)] ∧ NodeOf env ver table (ids, T) ∧
      ∀ t ∈ tableTypes, elementsNamed t T2 = entries t T ∧ List.Forall₂ (NodeOf env ver) ((recordsAt t rows).map (·.1)) (entries t T) := by
  have h1 := shown_entries env ver "IdMappings" (by simp) docinfo T2 hT hr
  rw [h.top] at h1
  generalize hE : entries "IdMappings" T2 = E at h1
  cases h1 with
  | cons h2 h3 =>
    cases h3
    rename_i x
    obtain ⟨ids, T⟩ := x
    obtain ⟨hn, K, C, hKC, hK, hC, hrows⟩ := h2
    refine ⟨ids, T, rfl, ?_, hn, ?_⟩
    · have h4 := shown_elements env ver "IdMappings" (by simp) docinfo T2 hT hr
      rw [h.one] at h4
      have h5 := entries_elements "IdMappings" T2
      rw [hE] at h5
      exact (h5.eq_of_length h4.length_eq).symm
    · intro t ht
      have ht' : t ∈ "IdMappings" :: tableTypes := by simp [ht]
      have e1 : entries t T = entries t C := by
        show entries t (ids, T).2 = _
        rw [hKC, entries_append, quiet_entries t (table_loud t ht') hK, List.nil_append]
      have h4 := shown_elements env ver t ht' docinfo T2 hT hr
      have h5 := shown_entries env ver t ht' rows C hC hrows
      rw [h.only t ht] at h4
      have h6 : List.Forall₂ (NodeOf env ver) ((recordsAt t rows).map (·.1)) (entries t T) := by
        rw [List.forall₂_map_left_iff, e1]
        exact h5.imp fun _ _ h => h.1
      refine ⟨?_, h6⟩
      have h7 : (entries t T).Sublist (elementsNamed t T2) :=
        .trans (entries_elements t T) (entry_elements t "IdMappings" T2 (ids, T) (by rw [hE]; simp))
      exact (h7.eq_of_length (h6.length_eq.symm.trans h4.length_eq)).symm

/-! ### Sections -/

theorem shown_none (env : XmlEnv) (t : String) (ht : lit t ∈ loudNames) (G : Forest ModelItem) : ∀ T, Shown env G T → (∀ m, .start m ∈ eventsOf G → m.model ≠ t) →
    elementsNamed t T = [] := by
  induction G with
  | nil => intro T hT _; rw [hT]; rfl
  | node m cs sibs ih1 ih2 =>
    intro T hT hm
    obtain ⟨p, attrs, kids, K, C, S, hst, hsil, hkids, hK, hC, hS, rfl⟩ := hT
    have h1 : lit m.model ≠ lit t := by rw [Ne, lit_eq]; exact hm m (by simp [eventsOf])
    simp only [elementsNamed, if_neg h1, elementsNamed_append, quiet_elements t ht (silent_tree hK hsil), ih1 C hC fun m h => hm m (by simp [eventsOf, h]),
      ih2 S hS fun m h => hm m (by simp [eventsOf, h]), List.nil_append]

/-- The names of the elements that are not those of records. -/
def madeNames : List String := ["SectionDef", "TableBody", "LineSeg", "Text", "ControlChar", "ColumnSet", "TableRow"]

theorem derived_types (ms : List (PModel Fields)) (ctx : DCtx) (a : Item) (h : Derived (ms.mapIdx itemOf) a) :
    (concItem ms ctx a).model ∈ madeNames ∨ ∃ m ∈ ms, (concItem ms ctx a).model = m.type := by
  have hrec : a ∈ ms.mapIdx itemOf → (concItem ms ctx a).model ∈ madeNames ∨ ∃ m ∈ ms, (concItem ms ctx a).model = m.type := by
    intro ha
    obtain ⟨i, m, hm, rfl⟩ := mem_items ha
    rw [concItem_itemOf hm]
    exact .inr ⟨m, List.mem_of_getElem? hm, rfl⟩
  cases a with
  | sectionDef o t =>
    obtain ⟨o', h'⟩ := h
    obtain ⟨i, m, hm, e⟩ := mem_items h'
    obtain ⟨h1, -, rfl⟩ := itemOf_sectionDef e.symm
    cases o <;> exact .inl (by simp [concItem, recordItem, contentAt, hm, h1, madeNames])
  | tableBody o t =>
    obtain ⟨o', h'⟩ := h
    obtain ⟨i, m, hm, e⟩ := mem_items h'
    obtain ⟨h1, -, rfl⟩ := itemOf_tableBody e.symm
    cases o <;> exact .inl (by simp [concItem, recordItem, contentAt, hm, h1, madeNames])
  | lineSeg l =>
    obtain ⟨o, k⟩ := l
    cases o <;> exact .inl (by simp [concItem, madeNames])
  | text s sh l => exact .inl (by simp [concItem, madeNames])
  | controlChar code kind sh => exact .inl (by simp [concItem, madeNames])
  | columnSet => exact .inl (by simp [concItem, madeNames])
  | tableRow => exact .inl (by simp [concItem, madeNames])
  | paraText c t => exact absurd h (by simp [Derived])
  | paraCharShape c t => exact absurd h (by simp [Derived])
  | paraLineSeg c t => exact absurd h (by simp [Derived])
  | paraRangeTag t => exact absurd h (by simp [Derived])
  | paragraph n t => exact hrec h
  | tableCell t => exact hrec h
  | listHeader c t => exact hrec h
  | field c t => exact hrec h
  | tableControl t => exact hrec h
  | gshapeControl t => exact hrec h
  | control c t => exact hrec h
  | shapeComponent t => exact hrec h
  | other c t => exact hrec h

theorem sectionOf_none {env : XmlEnv} {rd : ModelReader Fields} {ver : Version} {s : Nat × Bytes} {cs : Forest XNode} (h : SectionOf env rd ver s cs)
    (t : String) (ht : t ∈ "IdMappings" :: tableTypes) (hm : ∀ m ∈ (streamModels rd s.2).out, m.type ≠ t) : elementsNamed t cs = [] := by
  obtain ⟨f, n, g, hf, -, hb, -, hx, hk⟩ := h
  obtain ⟨K, C, rfl, hq, hC⟩ := kidsOf_shown hk (hx _ (by simp [eventsOf])).2.1 (by
    intro a ha
    obtain ⟨x, h1, rfl⟩ := start_map _ _ _ ha
    exact ⟨(hx x (by simp [eventsOf, h1])).1, (hx x (by simp [eventsOf, h1])).2.1⟩)
  have hl := table_loud t ht
  rw [elementsNamed_append, quiet_elements t hl hq, List.nil_append]
  refine shown_none env t hl _ C hC ?_
  intro m hm'
  obtain ⟨x, h1, rfl⟩ := start_map _ _ _ hm'
  rcases derived_types (streamModels rd s.2).out ⟨some ver, none⟩ x (hx x (by simp [eventsOf, h1])).2.2.2 with g1 | ⟨m, g1, g2⟩
  · have : ∀ t ∈ "IdMappings" :: tableTypes, t ∉ madeNames := by decide +kernel
    intro e
    exact this t ht (e ▸ g1)
  · rw [g2]; exact hm m g1

theorem sections_none {env : XmlEnv} {rd : ModelReader Fields} {ver : Version} (t : String) (ht : t ∈ "IdMappings" :: tableTypes) :
    ∀ (ss : List (Nat × Bytes)) (T : Forest XNode), SectionNodes (SectionOf env rd ver) ss T →
    (∀ s ∈ ss, ∀ m ∈ (streamModels rd s.2).out, m.type ≠ t) → elementsNamed t T = []
  | [], T, h, _ => by rw [show T = .nil from h]; rfl
  | s :: ss, .nil, h, _ => h.elim
  | s :: ss, .node (.text _) _ _, h, _ => h.elim
  | s :: ss, .node (.elem n as) cs sibs, h, hm => by
    obtain ⟨rfl, h1, h2⟩ := h
    have hne : lit "SectionDef" ≠ lit t := by
      rw [Ne, lit_eq]
      rintro rfl
      exact absurd ht (by decide)
    simp only [elementsNamed, if_neg hne, sectionOf_none h1 t ht (hm s (by simp)), sections_none t ht ss sibs h2 fun s hs => hm s (by simp [hs]), List.nil_append]

/-! ### The summary information -/

/-- A model shown by an element without children. -/
def SoleElement (env : XmlEnv) (m : ModelItem) : Prop :=
  idNameOf m.model = none ∧ lit m.model ∉ loudNames ∧ ∃ attrs, startModel env m = .ofList [.start (lit m.model) attrs]

theorem plain_sole (env : XmlEnv) (model : String) (attrs : Fields) (ctx : DCtx) (hid : idNameOf model = none) (hl : lit model ∉ loudNames) (hc : classChain model = [])
    (hm : model ≠ "Text") (hv : ValidName (lit model)) (hp : ∀ p ∈ attrs, (plainText p.2).isSome = true) (names : List String) (he : attrs.map (·.1) = names)
    (hn : ((names.map lit).map hyphen).Nodup) (hx : ∀ p ∈ names, ValidName (hyphen (lit p))) (ht : "<text>" ∉ names) : SoleElement env ⟨model, attrs, ctx⟩ := by
  refine ⟨hid, hl, _, (plain_model env model attrs ctx hc hm hv hp ?_ ?_ (by rw [he]; exact ht)).1⟩
  · rw [← he] at hn
    simpa [Function.comp_def] using hn
  · intro p hp
    exact hx p.1 (he ▸ List.mem_map_of_mem hp)

theorem entry_sole (env : XmlEnv) (e : Nat × PyStr) :
    SoleElement env ⟨"DictionaryEntry", [("id", .leaf (.int e.1)), ("name", .leaf (.str e.2))], ⟨none, none⟩⟩ :=
  plain_sole env _ _ _ rfl (by decide +kernel) rfl (by decide) (by decide +kernel) (by simp [plainText]) ["id", "name"] rfl
    (by decide +kernel) (by decide +kernel) (by decide)

theorem property_sole (env : XmlEnv) (filetime : Nat → PyStr) (p : PropObj) :
    ∀ a, .start a ∈ propertyElement filetime p → SoleElement env a := by
  obtain ⟨id, offset, label, value⟩ := p
  refine all_element ?_ ?_
  · have hp : ∀ q ∈ ([("id", .leaf (.int id)), ("offset", .leaf (.int offset))] ++
        labelAttrs label ++ typeAttrs value ++ valueAttrs filetime value : Fields), (plainText q.2).isSome = true := by
      cases label <;> cases value <;> simp [plainText, labelAttrs, typeAttrs, valueAttrs]
    have key : ∀ names, names ∈ [["id", "offset", "type", "type_code", "value"], ["id", "offset"],
        ["id", "offset", "id_label", "type", "type_code", "value"], ["id", "offset", "id_label"]] →
        ((names.map lit).map hyphen).Nodup ∧ (∀ p ∈ names, ValidName (hyphen (lit p))) ∧ "<text>" ∉ names := by
      decide +kernel
    have fin : ∀ names, names ∈ [["id", "offset", "type", "type_code", "value"], ["id", "offset"],
        ["id", "offset", "id_label", "type", "type_code", "value"], ["id", "offset", "id_label"]] →
        ([("id", .leaf (.int id)), ("offset", .leaf (.int offset))] ++
        labelAttrs label ++ typeAttrs value ++ valueAttrs filetime value : Fields).map (·.1) = names →
        SoleElement env ⟨"Property", [("id", .leaf (.int id)), ("offset", .leaf (.int offset))] ++
        labelAttrs label ++ typeAttrs value ++ valueAttrs filetime value, ⟨none, none⟩⟩ := by
      intro names hn he
      obtain ⟨h1, h2, h3⟩ := key names hn
      exact plain_sole env _ _ _ rfl (by decide +kernel) rfl (by decide) (by decide +kernel) hp names he h1 h2 h3
    cases label with
    | none =>
      cases value with
      | dictionary es => exact fin ["id", "offset"] (by simp) rfl
      | i4 n => exact fin ["id", "offset", "type", "type_code", "value"] (by simp) rfl
      | lpwstr n => exact fin ["id", "offset", "type", "type_code", "value"] (by simp) rfl
      | filetime n => exact fin ["id", "offset", "type", "type_code", "value"] (by simp) rfl
    | some l =>
      cases value with
      | dictionary es => exact fin ["id", "offset", "id_label"] (by simp) rfl
      | i4 n => exact fin ["id", "offset", "id_label", "type", "type_code", "value"] (by simp) rfl
      | lpwstr n => exact fin ["id", "offset", "id_label", "type", "type_code", "value"] (by simp) rfl
      | filetime n => exact fin ["id", "offset", "id_label", "type", "type_code", "value"] (by simp) rfl
  · cases value <;> try (intro a ha; cases ha)
    exact all_flatMap (fun e _ => all_element (entry_sole env e) (fun a ha => by cases ha))

theorem summary_sole (env : XmlEnv) (filetime : Nat → PyStr) (s : PropStreamObj) (sorted : PropSetObj → List PropObj) :
    ∀ a, .start a ∈ element (⟨"PropertySetStream", [("byte_order", .leaf (.str (lowerHex 4 s.byteOrder))),
      ("version", .leaf (.str (Spec.decimal s.version))), ("system_identifier", .leaf (.str (lowerHex 8 s.systemIdentifier))),
      ("clsid", .leaf (.str (guidText s.clsid)))], ⟨none, none⟩⟩ : ModelItem) (s.sets.flatMap fun t => setElement filetime t (sorted t)) → SoleElement env a := by
  refine all_element ?_ (all_flatMap fun t _ => all_element ?_ (all_flatMap fun p _ => property_sole env filetime p))
  · exact plain_sole env _ _ _ rfl (by decide +kernel) rfl (by decide) (by decide +kernel) (by simp [plainText]) ["byte_order", "version", "system_identifier", "clsid"] rfl
      (by decide +kernel) (by decide +kernel) (by decide)
  · exact plain_sole env _ _ _ rfl (by decide +kernel) rfl (by decide) (by decide +kernel) (by simp [plainText]) ["fmtid", "offset"] rfl
      (by decide +kernel) (by decide +kernel) (by decide)

theorem sole_silent {env : XmlEnv} : ∀ (es pre : List (Ev ModelItem)) (Z : List XEv), (∀ m, .start m ∈ es → SoleElement env m) →
    XmlOf env (numberedFrom pre es) Z → Silent Z := by
  intro es
  induction es with
  | nil => intro pre Z _ hZ; cases hZ; intro n as hn; cases hn
  | cons e es ih =>
    intro pre Z hs hZ
    cases e with
    | start m =>
      obtain ⟨h1, h2, attrs, h3⟩ := hs m (by simp)
      simp only [numberedFrom] at hZ
      cases hZ with
      | cons g1 g2 =>
        have i := ih _ _ (fun m hm => hs m (by simp [hm])) g2
        have hw : withId pre m = m := by unfold withId; rw [h1]
        rw [hw] at g1
        obtain rfl := ofList_injective (h3.symm.trans g1)
        intro n as hn
        simp only [List.singleton_append, List.mem_cons, XEv.start.injEq] at hn
        rcases hn with ⟨rfl, -⟩ | hn
        · exact h2
        · exact i n as hn
    | stop m =>
      simp only [numberedFrom] at hZ
      cases hZ with
      | cons g1 g2 =>
        have i := ih _ _ (fun m hm => hs m (by simp [hm])) g2
        obtain rfl := ofList_injective g1
        intro n as hn
        simp only [List.singleton_append, List.mem_cons, reduceCtorEq, false_or] at hn
        exact i n as hn

/-- The summary information has none of the elements the text depends on. -/
theorem doc_summary_quiet (env : XmlEnv) (rd : ModelReader Fields) (filetime : Nat → PyStr) (d : DocSource)
    (hrd : ReadsDecls d.version rd) (h : ProperDocument rd d) (evs : List XEv) (he : documentXml env rd filetime d = .ofList evs) :
    ∃ (a0 a1 a2 a3 : List (PyStr × PyStr)) (T1 T2 T3 : Forest XNode),
      xmlTree (joined evs) = .node (.elem (lit "HwpDoc") a0) (.node (.elem (lit "HwpSummaryInfo") a1) T1
        (.node (.elem (lit "DocInfo") a2) T2 (.node (.elem (lit "BodyText") a3) T3 .nil))) .nil ∧ QuietTree T1 := by
  obtain ⟨f, body, sorted, hf, hsec, -, hev, hshow⟩ := document_parts rd filetime d hrd h
  obtain ⟨es, X, g1, g2, g3, -⟩ := document_shown env rd filetime d hrd h
  obtain rfl : es = _ := ofList_injective (g1.symm.trans hev)
  obtain rfl : X = evs := ofList_injective (g2.symm.trans he)
  obtain ⟨a0, a1, a2, a3, T1, T2, T3, pre, Y, post, p, h1, h2, h3, h4, as1, k1, Z1, p1, h5, h6, h7, -⟩ := doc_tree env d.version h.version _ (docinfoEvs d f)
    (d.sections.flatMap fun s => eventsOf ((body s).map (concItem (streamModels rd s.2).out ⟨some d.version, none⟩))) _ rfl
    (treelike_element _ (treelike_flatMap fun t _ => treelike_element _ (treelike_flatMap fun p _ => property_treelike filetime p)))
    ⟨_, (docinfo_part env rd d hrd h f hf).2.2⟩ (treelike_flatMap fun s _ => treelike_eventsOf _) _ g3 (hshow env).1
  refine ⟨a0, a1, a2, a3, T1, T2, T3, h4, ?_⟩
  have hm := (plain_model env "HwpSummaryInfo" [] ⟨none, none⟩ rfl (by decide) (by decide +kernel) (by simp) (by simp) (by simp) (by simp)).1
  have hk := ofList_injective (h5.symm.trans hm)
  simp only [List.cons.injEq] at hk
  rw [hk.2, List.nil_append] at h7
  exact silent_tree h7 (sole_silent _ p1 Z1 (summary_sole env filetime d.summary sorted) h6)

/-! ### The tables of a document -/

/-- The XML file of a document has the tables of its records. -/
theorem tables_of_records (env : XmlEnv) (rd : ModelReader Fields) (filetime : Nat → PyStr) (d : DocSource) (hrd : ReadsDecls d.version rd)
    (h : ProperDocument rd d) (hd : d.bindata = none) (evs : List XEv) (he : documentXml env rd filetime d = .ofList evs)
    (docinfo rows : Forest (Nat × PModel Fields)) (table : PModel Fields) (hf : StreamTree rd d.docinfo docinfo) (ht : InfoTable docinfo table rows)
    (hsec : ∀ s ∈ d.sections, ∀ m ∈ (streamModels rd s.2).out, m.type ∉ "IdMappings" :: tableTypes) :
    ∃ ids T, TablesAre (xmlTree (joined evs)) ids T ∧ NodeOf env d.version table (ids, T) ∧
      ∀ t ∈ tableTypes, List.Forall₂ (NodeOf env d.version) ((recordsAt t rows).map (·.1)) (entries t T) := by
  obtain ⟨a0, a1, a2, a3, T1, T2, T3, docinfo', h1, h2, -, h3, Z, p, hZ, hT⟩ := doc_nodes env rd filetime d hrd h evs he
  obtain ⟨b0, b1, b2, b3, U1, U2, U3, g1, g2⟩ := doc_summary_quiet env rd filetime d hrd h evs he
  rw [h1] at g1
  simp only [Forest.node.injEq, XNode.elem.injEq, true_and, and_true] at g1
  obtain ⟨-, -, rfl, -⟩ := g1
  obtain rfl : docinfo' = docinfo := streamTree_unique h3 hf
  have hev : docinfoEvs d docinfo' = eventsOf (docinfo'.map (recItem d.version)) := by simp only [docinfoEvs, hd]; rfl
  have hrec : ∀ q, .start q ∈ eventsOf docinfo' → (parseModels rd (readRecords d.docinfo)).out[q.1]? = some q.2 ∧ q.2 ∈ (streamModels rd d.docinfo).out := by
    intro q hq
    have := tree_model hf q hq
    exact ⟨by rw [← tree_parse hf]; exact this, List.mem_of_getElem? this⟩
  have hbin : ∀ m ∈ (streamModels rd d.docinfo).out, m.type ≠ "BinData" ∨ "bindata" ∈ m.content.map (·.1) := by
    intro m hm
    by_cases e : m.type = "BinData"
    · exact .inr (h.docinfoData m hm e)
    · exact .inl e
  obtain ⟨T', hT', hshown, -⟩ := shown_forest env (docinfo'.map (recItem d.version)) p Z (by
    intro a ha
    obtain ⟨q, hq, rfl⟩ := start_map _ _ _ ha
    obtain ⟨h1, h2⟩ := hrec q hq
    exact ⟨record_good env d.version rd hrd _ q.1 q.2 h1 (h.docinfoTypes q.2 h2) (hbin q.2 h2),
      record_heard env d.version rd hrd _ q.1 q.2 h1 (h.docinfoTypes q.2 h2) (hbin q.2 h2)⟩) (hev ▸ hZ)
  obtain rfl := bal_unique hT hT'
  obtain ⟨ids, T, e1, e2, e3, e4⟩ := info_table ht hshown fun q hq => record_type d.version rd hrd _ q.1 q.2 (hrec q hq).1
  have none3 : ∀ t ∈ "IdMappings" :: tableTypes, elementsNamed t T3 = [] := fun t ht => sections_none t ht _ _ h2 fun s hs m hm e => hsec s hs m hm (e ▸ ht)
  have all : ∀ t ∈ "IdMappings" :: tableTypes, elementsNamed t (xmlTree (joined evs)) = elementsNamed t T2 := by
    intro t ht
    have n : ∀ n ∈ ["HwpDoc", "HwpSummaryInfo", "DocInfo", "BodyText"], lit n ≠ lit t := by
      intro n hn
      rw [Ne, lit_eq]
      rintro rfl
      have : ∀ n ∈ ["HwpDoc", "HwpSummaryInfo", "DocInfo", "BodyText"], n ∉ "IdMappings" :: tableTypes := by decide
      exact this n hn ht
    rw [h1]
    simp only [elementsNamed, if_neg (n "HwpDoc" (by simp)), if_neg (n "HwpSummaryInfo" (by simp)), if_neg (n "DocInfo" (by simp)), if_neg (n "BodyText" (by simp)),
      quiet_elements t (table_loud t ht) g2, none3 t ht, List.nil_append, List.append_nil]
  refine ⟨ids, T, ⟨⟨a0, .node (.elem (lit "HwpSummaryInfo") a1) T1 (.node (.elem (lit "DocInfo") a2) T2 (.node (.elem (lit "BodyText") a3) T3 .nil)), ?_, a2, T2, ?_, e1⟩, ?_, ?_⟩,
    e3, fun t ht => (e4 t ht).2⟩
  · rw [h1]; simp [entries]
  · simp [entries, lit_eq]
  · rw [all _ (by simp), e2]
  · intro t ht
    rw [all t (List.mem_cons_of_mem _ ht), (e4 t ht).1]

end Hwp
