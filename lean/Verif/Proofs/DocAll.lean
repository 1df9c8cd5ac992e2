/-
A whole document: its events, ids and XML.
-/
import Verif.Proofs.DocParts
import Verif.Proofs.Layout
set_option linter.unusedSimpArgs false
set_option linter.unusedVariables false
namespace Hwp
open Spec

/-! ### Names of the events -/

/-- The names of the events are those of a forest. -/
def Treelike (es : List (Ev ModelItem)) : Prop := ∃ F, es.map evName = eventsOf F

theorem treelike_nil : Treelike [] := ⟨.nil, rfl⟩
theorem treelike_append {a b : List (Ev ModelItem)} (ha : Treelike a) (hb : Treelike b) : Treelike (a ++ b) := by
  obtain ⟨F, hF⟩ := ha
  obtain ⟨G, hG⟩ := hb
  exact ⟨F.append G, by rw [eventsOf_append, List.map_append, hF, hG]⟩
theorem element_names (m : ModelItem) {es : List (Ev ModelItem)} {F : Forest String} (h : es.map evName = eventsOf F) :
    (element m es).map evName = eventsOf (.node m.model F .nil) := by
  simp [element, eventsOf, evName, h]
theorem treelike_element (m : ModelItem) {es : List (Ev ModelItem)} (h : Treelike es) : Treelike (element m es) := by
  obtain ⟨F, hF⟩ := h
  exact ⟨_, element_names m hF⟩
theorem treelike_flatMap {β} {f : β → List (Ev ModelItem)} {xs : List β} (h : ∀ x ∈ xs, Treelike (f x)) : Treelike (xs.flatMap f) := by
  induction xs with
  | nil => exact treelike_nil
  | cons x xs ih => exact treelike_append (h x (by simp)) (ih fun y hy => h y (by simp [hy]))
theorem treelike_eventsOf (f : Forest ModelItem) : Treelike (eventsOf f) := ⟨_, names_eventsOf f⟩

theorem property_treelike (filetime : Nat → PyStr) (p : PropObj) : Treelike (propertyElement filetime p) := by
  refine treelike_element _ ?_
  unfold entryElements
  split
  · exact treelike_flatMap fun e _ => treelike_element _ treelike_nil
  · exact treelike_nil

theorem summary_treelike (filetime : Nat → PyStr) (s : PropStreamObj) (sorted : PropSetObj → List PropObj) :
    Treelike (summaryElement s (s.sets.flatMap fun t => setElement filetime t (sorted t))) :=
  treelike_element _ (treelike_element _ (treelike_flatMap fun t _ => treelike_element _ (treelike_flatMap fun p _ => property_treelike filetime p)))

/-! ### The document -/

theorem docinfo_wrapper_good (env : XmlEnv) : IdShows env ⟨"DocInfo", [], ⟨none, none⟩⟩ :=
  plain_good env _ _ _ rfl rfl (by decide) (by decide +kernel) (by simp) [] rfl (by decide +kernel) (by decide +kernel) (by decide)

theorem body_wrapper_good (env : XmlEnv) : IdShows env ⟨"BodyText", [], ⟨none, none⟩⟩ :=
  plain_good env _ _ _ rfl rfl (by decide) (by decide +kernel) (by simp) [] rfl (by decide +kernel) (by decide +kernel) (by decide)

theorem document_parts (rd : ModelReader Fields) (filetime : Nat → PyStr) (d : DocSource)
    (hrd : ReadsDecls d.version rd) (h : ProperDocument rd d) :
    ∃ (docinfo : Forest (Nat × PModel Fields)) (body : Nat × Bytes → Forest Item) (sorted : PropSetObj → List PropObj),
      StreamTree rd d.docinfo docinfo ∧
      (∀ s ∈ d.sections, ∃ f, StreamTree rd s.2 f ∧ SectionBody s.1 f (body s) ∧ ProperSection (f.map fun p => itemOf p.1 p.2) ∧
        sectionEvents (some s.1) (.ofList (eventsOf (f.map fun p => itemOf p.1 p.2))) = .ofList (eventsOf (body s))) ∧
      (∀ t ∈ d.summary.sets, InOffsetOrder t.properties (sorted t)) ∧
      documentEvents rd filetime d = .ofList (numbered (documentElement d.version
        (summaryElement d.summary (d.summary.sets.flatMap fun t => setElement filetime t (sorted t)))
        (docinfoEvs d docinfo)
        (d.sections.flatMap fun s => eventsOf ((body s).map (concItem (streamModels rd s.2).out ⟨some d.version, none⟩))))) ∧
      ∀ env, (∀ a, .start a ∈ documentElement d.version
        (summaryElement d.summary (d.summary.sets.flatMap fun t => setElement filetime t (sorted t)))
        (docinfoEvs d docinfo)
        (d.sections.flatMap fun s => eventsOf ((body s).map (concItem (streamModels rd s.2).out ⟨some d.version, none⟩))) → IdShows env a) ∧
        ∃ F, (documentElement d.version
        (summaryElement d.summary (d.summary.sets.flatMap fun t => setElement filetime t (sorted t)))
        (docinfoEvs d docinfo)
        (d.sections.flatMap fun s => eventsOf ((body s).map (concItem (streamModels rd s.2).out ⟨some d.version, none⟩)))).map evName =
          eventsOf (.node "HwpDoc" F .nil) := by
  obtain ⟨data, hdata⟩ := h.summary
  obtain ⟨hsets, -⟩ := readStreamObj_ok _ _ hdata
  obtain ⟨f, hf⟩ := h.docinfo
  have hsec : ∀ s : Nat × Bytes, ∃ b, s ∈ d.sections →
      (∃ f, StreamTree rd s.2 f ∧ SectionBody s.1 f b ∧ ProperSection (f.map fun p => itemOf p.1 p.2) ∧
        sectionEvents (some s.1) (.ofList (eventsOf (f.map fun p => itemOf p.1 p.2))) = .ofList (eventsOf b)) ∧
      sectionDocEvents rd d.version s.1 s.2 = .ofList (eventsOf (b.map (concItem (streamModels rd s.2).out (streamCtx d.version)))) ∧
      ∀ env a, .start a ∈ eventsOf (b.map (concItem (streamModels rd s.2).out (streamCtx d.version))) → IdShows env a := by
    intro s
    by_cases hs : s ∈ d.sections
    · obtain ⟨g, hg, hp⟩ := h.sections s hs
      obtain ⟨b, h1, h2, -⟩ := section_part ⟨fun _ => [], fun _ => []⟩ rd d.version hrd s.1 s.2 g hg hp (h.sectionData s hs)
      refine ⟨b, fun _ => ⟨⟨g, hg, h1.1, hp, h1.2⟩, h2, ?_⟩⟩
      intro env
      obtain ⟨b', h1', h2', h3'⟩ := section_part env rd d.version hrd s.1 s.2 g hg hp (h.sectionData s hs)
      rw [h2] at h2'
      have : eventsOf (b.map (concItem (streamModels rd s.2).out (streamCtx d.version))) =
          eventsOf (b'.map (concItem (streamModels rd s.2).out (streamCtx d.version))) := congrArg Gen.out h2'
      rw [this]
      exact h3'
    · exact ⟨.nil, fun c => absurd c hs⟩
  have hbody := fun s => Classical.choose_spec (hsec s)
  refine ⟨f, fun s => Classical.choose (hsec s), fun t => sortByOffset t.properties, hf, fun s hs => (hbody s hs).1,
    fun t _ => sortByOffset_order t.properties, ?_, ?_⟩
  · unfold documentEvents
    have hchain : Gen.chain [summaryEvents filetime d.summary, docinfoEvents rd d, bodyEvents rd d] = .ofList (
        summaryElement d.summary (d.summary.sets.flatMap fun t => setElement filetime t (sortByOffset t.properties)) ++
        element ⟨"DocInfo", [], ⟨none, none⟩⟩ (docinfoEvs d f) ++
        element ⟨"BodyText", [], ⟨none, none⟩⟩ (d.sections.flatMap fun s => eventsOf ((Classical.choose (hsec s)).map (concItem (streamModels rd s.2).out ⟨some d.version, none⟩)))) := by
      rw [summary_events filetime _ hsets, (docinfo_part ⟨fun _ => [], fun _ => []⟩ rd d hrd h f hf).1]
      unfold bodyEvents
      rw [chain_map d.sections (fun s => sectionDocEvents rd d.version s.1 s.2)
        (fun s => eventsOf ((Classical.choose (hsec s)).map (concItem (streamModels rd s.2).out ⟨some d.version, none⟩)))
        (fun s hs => (hbody s hs).2.1), wrap_ofList]
      simp [Gen.chain, Gen.ofList, Gen.prepend, Gen.done, noCtx]
    rw [hchain, wrap_ofList]
    refine Gen.ext ?_ rfl
    refine numberGo_numbered _ _ _ ⟨rfl, rfl, rfl, rfl⟩ ?_
    intro m hm
    refine idShows_fresh (env := ⟨fun _ => [], fun _ => []⟩) ?_
    revert m hm
    refine all_element ?_ ?_
    · exact good_of_shows _ _ rfl (hwpdoc_shown _ _ h.version).2
    · intro a ha
      simp only [List.mem_append] at ha
      rcases ha with (ha | ha) | ha
      · exact summary_good _ filetime d.summary (fun t => sortByOffset t.properties) a ha
      · exact all_element (docinfo_wrapper_good _) (docinfo_part _ rd d hrd h f hf).2.1 a ha
      · exact all_element (body_wrapper_good _) (all_flatMap fun s hs => (hbody s hs).2.2 _) a ha
  · intro env
    refine ⟨?_, ?_⟩
    · refine all_element ?_ ?_
      · exact good_of_shows _ _ rfl (hwpdoc_shown _ _ h.version).2
      · intro a ha
        simp only [List.mem_append] at ha
        rcases ha with (ha | ha) | ha
        · exact summary_good _ filetime d.summary (fun t => sortByOffset t.properties) a ha
        · exact all_element (docinfo_wrapper_good _) (docinfo_part _ rd d hrd h f hf).2.1 a ha
        · exact all_element (body_wrapper_good _) (all_flatMap fun s hs => (hbody s hs).2.2 _) a ha
    · obtain ⟨F, hF⟩ := treelike_append (treelike_append
        (summary_treelike filetime d.summary (fun t => sortByOffset t.properties))
        (treelike_element ⟨"DocInfo", [], ⟨none, none⟩⟩ (es := docinfoEvs d f) ⟨_, (docinfo_part env rd d hrd h f hf).2.2⟩))
        (treelike_element ⟨"BodyText", [], ⟨none, none⟩⟩ (treelike_flatMap (xs := d.sections)
          (f := fun s => eventsOf ((Classical.choose (hsec s)).map (concItem (streamModels rd s.2).out ⟨some d.version, none⟩)))
          fun s _ => treelike_eventsOf _))
      exact ⟨F, element_names _ hF⟩

/-! ### Ids -/

theorem paragraph_ids : ∀ (es : List (Ev ModelItem)) (c : IdCounters),
    ((starts (numberGo c es)).filter (fun m => m.model = "Paragraph")).map (fun m => m.attributes.lookup "paragraph_id") =
      (List.range' c.paragraph (countModel "Paragraph" es)).map fun n => some (.leaf (.int n)) := by
  intro es
  induction es with
  | nil => intro c; rfl
  | cons e es ih =>
    intro c
    cases e with
    | stop m => simp only [numberGo, starts, countModel, ih]
    | start m =>
      unfold numberGo countModel
      dsimp only
      by_cases h : m.model = "Paragraph"
      · rw [if_pos h]
        simp only [starts, List.filter_cons, h, decide_true, if_true, List.map_cons, lookup_setField_self, ih, Nat.add_comm 1, List.range'_succ]
      rw [if_neg h]
      simp only [h, if_false, Nat.zero_add]
      by_cases h : m.model = "TableControl"
      · rw [if_pos h]
        simp [starts, List.filter_cons, h, ih]
      rw [if_neg h]
      by_cases h : m.model = "GShapeObjectControl"
      · rw [if_pos h]
        simp [starts, List.filter_cons, h, ih]
      rw [if_neg h]
      by_cases h : m.model = "ShapeComponent"
      · rw [if_pos h]
        simp [starts, List.filter_cons, h, ih]
      rw [if_neg h]
      simp [starts, List.filter_cons, ih, *]

theorem table_ids : ∀ (es : List (Ev ModelItem)) (c : IdCounters),
    ((starts (numberGo c es)).filter (fun m => m.model = "TableControl")).map (fun m => m.attributes.lookup "table_id") =
      (List.range' c.table (countModel "TableControl" es)).map fun n => some (.leaf (.int n)) := by
  intro es
  induction es with
  | nil => intro c; rfl
  | cons e es ih =>
    intro c
    cases e with
    | stop m => simp only [numberGo, starts, countModel, ih]
    | start m =>
      unfold numberGo countModel
      dsimp only
      by_cases h : m.model = "Paragraph"
      · rw [if_pos h]
        simp [starts, List.filter_cons, h, ih]
      rw [if_neg h]
      by_cases h : m.model = "TableControl"
      · rw [if_pos h]
        simp only [starts, List.filter_cons, h, decide_true, if_true, List.map_cons, lookup_setField_self, ih, Nat.add_comm 1, List.range'_succ]
      rw [if_neg h]
      simp only [h, if_false, Nat.zero_add]
      by_cases h : m.model = "GShapeObjectControl"
      · rw [if_pos h]
        simp [starts, List.filter_cons, h, ih]
      rw [if_neg h]
      by_cases h : m.model = "ShapeComponent"
      · rw [if_pos h]
        simp [starts, List.filter_cons, h, ih]
      rw [if_neg h]
      simp [starts, List.filter_cons, ih, *]

theorem gshape_ids : ∀ (es : List (Ev ModelItem)) (c : IdCounters),
    ((starts (numberGo c es)).filter (fun m => m.model = "GShapeObjectControl")).map (fun m => m.attributes.lookup "gshape_id") =
      (List.range' c.gshape (countModel "GShapeObjectControl" es)).map fun n => some (.leaf (.int n)) := by
  intro es
  induction es with
  | nil => intro c; rfl
  | cons e es ih =>
    intro c
    cases e with
    | stop m => simp only [numberGo, starts, countModel, ih]
    | start m =>
      unfold numberGo countModel
      dsimp only
      by_cases h : m.model = "Paragraph"
      · rw [if_pos h]
        simp [starts, List.filter_cons, h, ih]
      rw [if_neg h]
      by_cases h : m.model = "TableControl"
      · rw [if_pos h]
        simp [starts, List.filter_cons, h, ih]
      rw [if_neg h]
      by_cases h : m.model = "GShapeObjectControl"
      · rw [if_pos h]
        simp only [starts, List.filter_cons, h, decide_true, if_true, List.map_cons, lookup_setField_self, ih, Nat.add_comm 1, List.range'_succ]
      rw [if_neg h]
      simp only [h, if_false, Nat.zero_add]
      by_cases h : m.model = "ShapeComponent"
      · rw [if_pos h]
        simp [starts, List.filter_cons, h, ih]
      rw [if_neg h]
      simp [starts, List.filter_cons, ih, *]

theorem shape_ids : ∀ (es : List (Ev ModelItem)) (c : IdCounters),
    ((starts (numberGo c es)).filter (fun m => m.model = "ShapeComponent")).map (fun m => m.attributes.lookup "shape_id") =
      (List.range' c.shape (countModel "ShapeComponent" es)).map fun n => some (.leaf (.int n)) := by
  intro es
  induction es with
  | nil => intro c; rfl
  | cons e es ih =>
    intro c
    cases e with
    | stop m => simp only [numberGo, starts, countModel, ih]
    | start m =>
      unfold numberGo countModel
      dsimp only
      by_cases h : m.model = "Paragraph"
      · rw [if_pos h]
        simp [starts, List.filter_cons, h, ih]
      rw [if_neg h]
      by_cases h : m.model = "TableControl"
      · rw [if_pos h]
        simp [starts, List.filter_cons, h, ih]
      rw [if_neg h]
      by_cases h : m.model = "GShapeObjectControl"
      · rw [if_pos h]
        simp [starts, List.filter_cons, h, ih]
      rw [if_neg h]
      by_cases h : m.model = "ShapeComponent"
      · rw [if_pos h]
        simp only [starts, List.filter_cons, h, decide_true, if_true, List.map_cons, lookup_setField_self, ih, Nat.add_comm 1, List.range'_succ]
      rw [if_neg h]
      simp only [h, if_false, Nat.zero_add]
      simp [starts, List.filter_cons, ih, *]

theorem ids_of {model k : String} (h : idNameOf model = some k) (es : List (Ev ModelItem)) :
    ((starts (numberGo {} es)).filter (fun m => m.model = model)).map (fun m => m.attributes.lookup k) =
      (List.range (countModel model es)).map fun n => some (.leaf (.int n)) := by
  rw [List.range_eq_range']
  rcases idNameOf_some h with ⟨rfl, rfl⟩ | ⟨rfl, rfl⟩ | ⟨rfl, rfl⟩ | ⟨rfl, rfl⟩
  · exact paragraph_ids es {}
  · exact table_ids es {}
  · exact gshape_ids es {}
  · exact shape_ids es {}

theorem numberGo_count (model : String) : ∀ (es : List (Ev ModelItem)) (c : IdCounters),
    countModel model (numberGo c es) = countModel model es := by
  intro es
  induction es with
  | nil => intro c; rfl
  | cons e es ih =>
    intro c
    cases e with
    | stop m => simp only [numberGo, countModel, ih]
    | start m =>
      unfold numberGo
      dsimp only
      split
      · simp [countModel, ih]
      split
      · simp [countModel, ih]
      split
      · simp [countModel, ih]
      split <;> simp [countModel, ih]

/-! ### XML of a document -/

theorem document_shown (env : XmlEnv) (rd : ModelReader Fields) (filetime : Nat → PyStr) (d : DocSource)
    (hrd : ReadsDecls d.version rd) (h : ProperDocument rd d) :
    ∃ es X, documentEvents rd filetime d = .ofList es ∧ documentXml env rd filetime d = .ofList X ∧ XmlOf env es X ∧
      OneRoot X ∧ ∀ e ∈ X, NamesOk e := by
  obtain ⟨f, body, sorted, -, -, -, hev, hshow⟩ := document_parts rd filetime d hrd h
  obtain ⟨hgood, F, hF⟩ := hshow env
  obtain ⟨X, h1, h2, h3, h4⟩ := document_xml env "HwpDoc" F _ ((numbered_names _ []).trans hF) (numbered_shows env _ [] hgood)
  refine ⟨_, X, hev, ?_, h2, h3, h4⟩
  unfold documentXml
  rw [hev]
  exact h1

theorem xmlOf_mem {env : XmlEnv} {es : List (Ev ModelItem)} {X : List XEv} (h : XmlOf env es X) (e : Ev ModelItem) (he : e ∈ es) :
    ∃ pre x post, X = pre ++ x ++ post ∧ xmlOfEvent env e = .ofList x := by
  induction h with
  | nil => cases he
  | @cons e' es x xs hx _ ih =>
    rcases List.mem_cons.1 he with rfl | he
    · exact ⟨[], x, xs, rfl, hx⟩
    · obtain ⟨pre, y, post, rfl, hy⟩ := ih he
      exact ⟨x ++ pre, y, post, by simp, hy⟩

theorem numbered_mem : ∀ (es pre : List (Ev ModelItem)) (m : ModelItem), idNameOf m.model = none → .start m ∈ es →
    .start m ∈ numberedFrom pre es := by
  intro es
  induction es with
  | nil => intro pre m _ h; cases h
  | cons e es ih =>
    intro pre m hn h
    cases e with
    | stop a =>
      simp only [List.mem_cons, reduceCtorEq, false_or] at h
      simp only [numberedFrom, List.mem_cons, reduceCtorEq, false_or]
      exact ih _ m hn h
    | start a =>
      simp only [List.mem_cons, Ev.start.injEq] at h
      simp only [numberedFrom, List.mem_cons, Ev.start.injEq]
      rcases h with rfl | h
      · left
        unfold withId
        rw [hn]
      · exact Or.inr (ih _ m hn h)

theorem atStarts_of {α} (F : α → α) (es : List (Ev α)) (a : α) (h : .start a ∈ es) : .start (F a) ∈ atStarts F es := by
  induction es with
  | nil => cases h
  | cons e es ih =>
    cases e with
    | start b =>
      simp only [List.mem_cons, Ev.start.injEq] at h
      simp only [atStarts, List.mem_cons, Ev.start.injEq]
      rcases h with rfl | h
      · exact Or.inl rfl
      · exact Or.inr (ih h)
    | stop b =>
      simp only [List.mem_cons, reduceCtorEq, false_or] at h
      simp only [atStarts, List.mem_cons, reduceCtorEq, false_or]
      exact ih h

theorem depths_start {α} (f : Forest α) : ∀ (d d' : Nat) (a : α), (d', a) ∈ depthsOf d f → .start a ∈ eventsOf f := by
  induction f with
  | nil => intro d d' a h; cases h
  | node b cs sibs ih1 ih2 =>
    intro d d' a h
    simp only [depthsOf, List.mem_cons, List.mem_append, Prod.mk.injEq] at h
    simp only [eventsOf, List.mem_cons, List.mem_append, Ev.start.injEq, reduceCtorEq, false_or]
    rcases h with ⟨-, rfl⟩ | h | h
    · exact Or.inl rfl
    · exact Or.inr (Or.inl (ih1 _ _ _ h))
    · exact Or.inr (Or.inr (ih2 _ _ _ h))

theorem map_start {α β} (F : α → β) (f : Forest α) (a : α) (h : .start a ∈ eventsOf f) : .start (F a) ∈ eventsOf (f.map F) := by
  rw [← map_eventsOf F (fun e => match e with | .start a => .start (F a) | .stop a => .stop (F a)) (fun _ => rfl) (fun _ => rfl)]
  exact List.mem_map.2 ⟨_, h, rfl⟩

theorem model_start {rd : ModelReader Fields} {s : Bytes} {f : Forest (Nat × PModel Fields)} (h : StreamTree rd s f)
    (i : Nat) (m : PModel Fields) (hm : (streamModels rd s).out[i]? = some m) : .start (i, m) ∈ eventsOf f := by
  obtain ⟨hl, hx⟩ := List.getElem?_eq_some_iff.1 hm
  refine depths_start f 0 m.record.level (i, m) ?_
  rw [streamTree_depths h, List.mem_mapIdx]
  exact ⟨i, hl, by rw [hx]⟩

/-- The content of a `BinData` record that has its contents. -/
theorem bindata_content (ver : Version) (rd : ModelReader Fields) (hrd : ReadsDecls ver rd) (rs : Gen Record) (i : Nat) (m : PModel Fields)
    (hm : (parseModels rd rs).out[i]? = some m) (htype : m.type = "BinData") (hb : "bindata" ∈ m.content.map (·.1)) :
    ∃ n v, m.content = [("flags", .leaf (.flags Decl.BinDataFlags n)), ("bindata", v)] ∧
      (n % 16 = 1 → ∃ id ext, v = .struct [("storage_id", .leaf (.int id)), ("ext", .leaf (.str ext))] ∧ InRange .UINT16 id) := by
  obtain ⟨parts, plain, h1, h2, -⟩ := Props.C71_element_of_record ⟨fun _ => [], fun _ => []⟩ ver rd hrd rs i m hm
    (by rw [htype]; decide) (Or.inr hb) [] ⟨by simp, by simp, by simp, by simp⟩
  have hch : classChain "BinData" = [Decl.BinData] := rfl
  rw [htype, hch] at h1
  obtain ⟨fs, rfl, hfs⟩ : ∃ fs, parts = [fs] ∧ FieldsOf ⟨some ver, none⟩ Decl.BinData [] fs := by
    cases parts with
    | nil => simp [PartsOf] at h1
    | cons fs parts =>
      cases parts with
      | nil => exact ⟨fs, rfl, by simpa [PartsOf] using h1⟩
      | cons => simp [PartsOf] at h1
  have hcontent : m.content = fs := by
    rcases h2 with ⟨h2, -⟩ | ⟨h2, -⟩
    · rw [h2]; simp
    · rw [htype] at h2; exact absurd h2 (by decide)
  obtain ⟨n, v, hv, hst⟩ := embedding_fields _ _ hfs
  rw [storage_get] at hst
  exact ⟨n, v, by rw [hcontent, hv], fun hn => hst (by rw [hn])⟩

theorem document_embedded (env : XmlEnv) (rd : ModelReader Fields) (filetime : Nat → PyStr) (d : DocSource)
    (hrd : ReadsDecls d.version rd) (h : ProperDocument rd d) (bd : List (PyStr × Bytes)) (hbd : d.bindata = some bd)
    (X : List XEv) (hX : documentXml env rd filetime d = .ofList X) (m : PModel Fields)
    (hm : m ∈ (streamModels rd d.docinfo).out) (ht : m.type = "BinData") :
    ∃ n v, m.content = [("flags", .leaf (.flags Decl.BinDataFlags n)), ("bindata", v)] ∧
      (n % 16 = 1 → ∃ id ext data pre post attrs,
        v = .struct [("storage_id", .leaf (.int id)), ("ext", .leaf (.str ext))] ∧
        bd.lookup (binaryName id ext) = some data ∧
        X = pre ++ [.start (lit "BinData") attrs, .start (lit "BinDataEmbedding") (hyphens (embedAttrs id ext)),
          .text (chars (embedText data)), .stop (lit "BinDataEmbedding")] ++ post) := by
  obtain ⟨es, X', hes, hX', hof, -, -⟩ := document_shown env rd filetime d hrd h
  obtain rfl : X = X' := by rw [hX] at hX'; exact congrArg Gen.out hX'
  obtain ⟨f, body, sorted, hf, -, -, hev, -⟩ := document_parts rd filetime d hrd h
  obtain rfl := congrArg Gen.out (hes.symm.trans hev)
  obtain ⟨i, hi⟩ := List.mem_iff_getElem?.1 hm
  have hi' := hi
  rw [tree_parse hf] at hi'
  obtain ⟨n, v, hc, hv⟩ := bindata_content d.version rd hrd _ i m hi' ht (h.docinfoData m hm ht)
  refine ⟨n, v, hc, fun hn => ?_⟩
  obtain ⟨id, ext, rfl, hid⟩ := hv hn
  obtain ⟨data, hdata⟩ := Option.isSome_iff_exists.1 (h.embedded bd hbd m hm ht _ _ _ _ hc hn)
  have hmem : .start (withData bd ⟨m.type, m.content, ⟨some d.version, none⟩⟩) ∈ docinfoEvs d f := by
    unfold docinfoEvs
    rw [hbd]
    exact atStarts_of _ _ _ (map_start _ f _ (model_start hf i m hi))
  rw [ht, hc] at hmem
  have hw : withData bd ⟨"BinData", [("flags", .leaf (.flags Decl.BinDataFlags n)), ("bindata", .struct [("storage_id", .leaf (.int id)),
      ("ext", .leaf (.str ext))])], ⟨some d.version, none⟩⟩ = ⟨"BinData", [("flags", .leaf (.flags Decl.BinDataFlags n)),
      ("bindata", .struct [("storage_id", .leaf (.int id)), ("ext", .leaf (.str ext)), ("<text>", .leaf (.str (chars (embedText data)))),
        ("inline", .leaf (.str (lit "true")))])], ⟨some d.version, none⟩⟩ := by
    unfold withData
    dsimp only
    rw [if_pos ⟨rfl, hn⟩, hdata]; rfl
  rw [hw] at hmem
  have key : ∀ it : ModelItem, .start it ∈ docinfoEvs d f → idNameOf it.model = none → .start it ∈ numbered (documentElement d.version
        (summaryElement d.summary (d.summary.sets.flatMap fun t => setElement filetime t (sorted t)))
        (docinfoEvs d f)
        (d.sections.flatMap fun s => eventsOf ((body s).map (concItem (streamModels rd s.2).out ⟨some d.version, none⟩)))) := by
    intro it h1 h2
    refine numbered_mem _ [] it h2 ?_
    simp only [documentElement, element, List.mem_cons, List.mem_append]
    exact Or.inr (Or.inl (Or.inl (Or.inr (Or.inr (Or.inl h1)))))
  have hmem' := key _ hmem rfl
  obtain ⟨pre, x, post, rfl, hx⟩ := xmlOf_mem hof _ hmem'
  have hs := (embedded_shown env ⟨some d.version, none⟩ n id ext (chars (embedText data)) (by rw [storage_get, hn]) hid).1
  have hne : chars (embedText data) ≠ [] := by
    unfold embedText
    exact List.cons_ne_nil _ _
  rw [if_neg hne] at hs
  obtain rfl := congrArg Gen.out (hx.symm.trans hs)
  exact ⟨id, ext, data, pre, post, _, rfl, hdata, rfl⟩

end Hwp
