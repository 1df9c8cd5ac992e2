/-
The text of the sections of a document in HTML and ODT.
-/
import Verif.Proofs.Pages
import Verif.Props.Pipeline
import Verif.Props.Utf8
set_option linter.unusedSimpArgs false
set_option linter.unusedVariables false
set_option autoImplicit false
namespace Hwp
open Spec

theorem bal_unique {X : List XEv} {T U : Forest XNode} (h : BalX X T) (g : BalX X U) : T = U := by
  have h1 := bal_tree h .nil []
  have h2 := bal_tree g .nil []
  rw [h1] at h2
  simpa [forest_append_nil] using h2

/-- The sections: one section definition for each. -/
def SectionNodes {S : Type} (R : S → Forest XNode → Prop) : List S → Forest XNode → Prop
  | [], T => T = .nil
  | s :: ss, .node (.elem n as) cs sibs => n = lit "SectionDef" ∧ R s cs ∧ SectionNodes R ss sibs
  | _ :: _, _ => False

theorem sectionNodes_mono {S : Type} {R Q : S → Forest XNode → Prop} : ∀ (ss : List S) (T : Forest XNode), (∀ s ∈ ss, ∀ cs, R s cs → Q s cs) →
    SectionNodes R ss T → SectionNodes Q ss T
  | [], T, _, h => h
  | s :: ss, .nil, _, h => h.elim
  | s :: ss, .node (.text _) _ _, _, h => h.elim
  | s :: ss, .node (.elem n as) cs sibs, hr, h => ⟨h.1, hr s (by simp) cs h.2.1, sectionNodes_mono ss sibs (fun s hs => hr s (by simp [hs])) h.2.2⟩

/-- The children of the element of a model: the elements of its fields, and the elements of the events. -/
def KidsOf (env : XmlEnv) (m : ModelItem) (es : List (Ev ModelItem)) (cs : Forest XNode) : Prop :=
  ∃ p p' attrs kids Z, startModel env (withId p m) = .ofList (.start (lit m.model) attrs :: kids) ∧ Kids kids ∧
    XmlOf env (numberedFrom p' es) Z ∧ BalX (joined (kids ++ Z)) cs

theorem kidsOf_texts {env : XmlEnv} {m : ModelItem} {es : List (Ev ModelItem)} {cs : Forest XNode} (h : KidsOf env m es cs) (hm : m.model ≠ "Text")
    (hh : IdHeard env m) (hs : ∀ a, .start a ∈ es → IdHeard env a) : allTexts cs = noNul (modelTexts es) := by
  obtain ⟨p, p', attrs, kids, Z, h1, h2, h3, h4⟩ := h
  have h0 : Heard env (withId p m) := numbered_heard env [.start m] p (by
    intro a ha
    simp only [List.mem_singleton, Ev.start.injEq] at ha
    subst ha
    exact hh) _ (by simp [numberedFrom])
  obtain ⟨attrs', kids', hst, hk⟩ := h0
  rw [if_neg (by rw [withId_model]; exact hm)] at hk
  have := ofList_injective (h1.symm.trans hst)
  simp only [List.cons.injEq] at this
  rw [← this.2] at hk
  rw [← evTexts_bal h4, evTexts_joined, evTexts_append, evTexts_quiet _ hk, List.nil_append,
    evTexts_models h3 (numbered_heard env _ _ hs), modelTexts_numbered]

theorem section_nodes {S : Type} (env : XmlEnv) (m : S → ModelItem) (es : S → List (Ev ModelItem)) (ss : List S) :
    ∀ (p : List (Ev ModelItem)) (Y : List XEv), (∀ s ∈ ss, (m s).model = "SectionDef" ∧ Treelike (es s)) →
    (∀ a, .start a ∈ ss.flatMap (fun s => element (m s) (es s)) → IdShows env a) →
    XmlOf env (numberedFrom p (ss.flatMap fun s => element (m s) (es s))) Y →
    ∃ T, BalX (joined Y) T ∧ SectionNodes (fun s => KidsOf env (m s) (es s)) ss T := by
  induction ss with
  | nil =>
    intro p Y _ _ hY
    cases hY
    exact ⟨.nil, .nil, rfl⟩
  | cons s ss ih =>
    intro p Y hm hs hY
    rw [List.flatMap_cons, numberedFrom_append] at hY
    obtain ⟨Y1, Y2, rfl, hY1, hY2⟩ := xmlOf_split _ hY
    obtain ⟨T2, hT2, hN⟩ := ih _ Y2 (fun s hs => hm s (by simp [hs])) (fun a ha => hs a (by
      rw [List.flatMap_cons]; exact List.mem_append_right _ ha)) hY2
    obtain ⟨hmod, htree⟩ := hm s (by simp)
    have hsub : ∀ a, .start a ∈ element (m s) (es s) → IdShows env a := fun a ha => hs a (by
      rw [List.flatMap_cons]; exact List.mem_append_left _ ha)
    have h0 := numbered_shows env [.start (m s)] p (by
      intro a ha
      simp only [List.mem_singleton, Ev.start.injEq] at ha
      subst ha
      exact hsub _ (by simp [element])) (withId p (m s)) (by simp [numberedFrom])
    have hw : (withId p (m s)).model = "SectionDef" := by rw [withId_model]; exact hmod
    obtain ⟨attrs, kids, hst, -, hkids, -⟩ := h0
    simp only [element, numberedFrom, numberedFrom_append] at hY1
    cases hY1 with
    | cons h1 h2 =>
      obtain ⟨Z, z, rfl, hZ, hz⟩ := xmlOf_split _ h2
      cases hz with
      | cons h3 h4 =>
        cases h4
        obtain rfl := ofList_injective (h1.symm.trans hst)
        obtain rfl := ofList_injective h3
        rw [hw, hmod]
        have hZ' := treelike_kids htree (fun a ha => hsub a (by simp [element, ha])) hZ
        obtain ⟨K, hK⟩ := kids_bal (kids_append' hkids hZ')
        have hjoin : XEv.start (lit "SectionDef") attrs :: kids ++ (Z ++ ([XEv.stop (lit "SectionDef")] ++ [])) ++ Y2 =
            .start (lit "SectionDef") attrs :: ((kids ++ Z) ++ .stop (lit "SectionDef") :: Y2) := by simp
        rw [hjoin, joined_element]
        refine ⟨_, .elem hK hT2, rfl, ⟨p, _, attrs, kids, Z, ?_, hkids, hZ, hK⟩, hN⟩
        rw [hst, hw, hmod]

/-- What the sections print and what they do not. -/
theorem sections_pages {S M P : Type} {sh : Sheet M} {v : Places P} {ways : P → List M} (h : Agrees sh v ways) (m : M) (p : P) (hp : ways p = [m])
    (H F : List Piece) {R : S → Forest XNode → Prop} {Q : S → PyStr → Prop} : ∀ (ss : List S) (T : Forest XNode), SectionNodes R ss T →
    (∀ s ∈ ss, ∀ cs, R s cs → ∀ t : PyStr, t.Perm (allTexts cs) → Q s t) →
    ∃ pages : List (PyStr × PyStr), List.Forall₂ (fun s pg => Q s (pg.1 ++ pg.2)) ss pages ∧
      printed (forEach (lit "SectionDef") (fun cs => H ++ walk sh cs m ++ F) T) = (pages.map fun pg => printed H ++ pg.1 ++ printed F).flatten ∧
      (pages.map (·.2)).flatten = hiddenSections v p T ∧
      (pages.map (·.1)).flatten = printed (forEach (lit "SectionDef") (fun cs => walk sh cs m) T) := by
  intro ss
  induction ss with
  | nil => intro T hT _; cases hT; exact ⟨[], .nil, rfl, rfl, rfl⟩
  | cons s ss ih =>
    intro T hT hQ
    cases T with
    | nil => exact hT.elim
    | node a cs sibs =>
      cases a with
      | text t => exact hT.elim
      | elem n as =>
        obtain ⟨rfl, h2, h3⟩ := hT
        obtain ⟨pages, i1, i2, i3, i4⟩ := ih sibs h3 fun s hs => hQ s (by simp [hs])
        refine ⟨(printed (walk sh cs m), hiddenText v cs p) :: pages, .cons ?_ i1, ?_, ?_, ?_⟩
        · have := walk_all h cs p
          rw [hp] at this
          exact hQ s (by simp) cs h2 _ (by simpa using this)
        · simp only [forEach, if_true, printed_append, i2, List.map_cons, List.flatten_cons]
        · simp only [hiddenSections, if_true, i3, List.map_cons, List.flatten_cons]
        · simp only [forEach, if_true, printed_append, i4, List.map_cons, List.flatten_cons]

/-- The body of a section is one section definition. -/
theorem section_root (sid : Option Nat) (f b : Forest Item) (h : ProperSection f)
    (e : sectionEvents sid (.ofList (eventsOf f)) = .ofList (eventsOf b)) :
    (∃ i t g, b = .node (.sectionDef (sid.or i) t) g .nil) ∧ (b.items.flatMap textItem).Perm (documentText f) := by
  obtain ⟨i, t, g, h1, -, -, -, h2, -⟩ := Props.C57_content sid f h
  refine ⟨⟨i, t, g, ?_⟩, ?_⟩
  · exact eventsOf_injective (ofList_injective (e.symm.trans h1))
  · rw [e] at h2
    have : starts (Gen.ofList (eventsOf b)).out = b.items := starts_eventsOf b
    rwa [this] at h2

theorem mem_summary (ver : Version) (S D B : List (Ev ModelItem)) (sum m : ModelItem) (h : Ev.start m ∈ S) :
    Ev.start m ∈ documentElement ver (element sum S) D B := by
  simp [documentElement, element, h]

/-- The element of a section, with its children. -/
def SectionOf (env : XmlEnv) (rd : ModelReader Fields) (ver : Version) (s : Nat × Bytes) (cs : Forest XNode) : Prop :=
  ∃ (f : Forest (Nat × PModel Fields)) (t : Nat) (g : Forest Item), StreamTree rd s.2 f ∧ SectionBody s.1 f (.node (.sectionDef (some s.1) t) g .nil) ∧
    sectionEvents (some s.1) (.ofList (eventsOf (f.map fun p => itemOf p.1 p.2))) = .ofList (eventsOf (.node (.sectionDef (some s.1) t) g .nil)) ∧
    ProperSection (f.map fun p => itemOf p.1 p.2) ∧
    (∀ x, .start x ∈ eventsOf (.node (.sectionDef (some s.1) t) g .nil) →
      IdShows env (concItem (streamModels rd s.2).out ⟨some ver, none⟩ x) ∧ IdHeard env (concItem (streamModels rd s.2).out ⟨some ver, none⟩ x) ∧
      Sounds x (concItem (streamModels rd s.2).out ⟨some ver, none⟩ x) ∧ Derived ((streamModels rd s.2).out.mapIdx itemOf) x) ∧
    KidsOf env (concItem (streamModels rd s.2).out ⟨some ver, none⟩ (.sectionDef (some s.1) t))
      (eventsOf (g.map (concItem (streamModels rd s.2).out ⟨some ver, none⟩))) cs

theorem start_of_item (F : Item → ModelItem) (g : Forest Item) (x : Item) (h : .start x ∈ eventsOf g) : Ev.start (F x) ∈ eventsOf (g.map F) := by
  induction g with
  | nil => cases h
  | node a cs sibs ih1 ih2 =>
    simp only [eventsOf, Forest.map, List.mem_cons, List.mem_append, Ev.start.injEq, reduceCtorEq, false_or] at h ⊢
    rcases h with rfl | h | h
    · exact .inl rfl
    · exact .inr (.inl (ih1 h))
    · exact .inr (.inr (ih2 h))

/-- The tree of the file of a document, with its sections. -/
theorem doc_nodes (env : XmlEnv) (rd : ModelReader Fields) (filetime : Nat → PyStr) (d : DocSource)
    (hrd : ReadsDecls d.version rd) (h : ProperDocument rd d) (evs : List XEv)
    (he : documentXml env rd filetime d = .ofList evs) :
    ∃ (a0 a1 a2 a3 : List (PyStr × PyStr)) (T1 T2 T3 : Forest XNode) (docinfo : Forest (Nat × PModel Fields)),
      xmlTree (joined evs) = .node (.elem (lit "HwpDoc") a0) (.node (.elem (lit "HwpSummaryInfo") a1) T1
        (.node (.elem (lit "DocInfo") a2) T2 (.node (.elem (lit "BodyText") a3) T3 .nil))) .nil ∧
      SectionNodes (SectionOf env rd d.version) d.sections T3 ∧
      (∃ as K, T1 = .node (.elem (lit "PropertySetStream") as) K .nil) ∧
      StreamTree rd d.docinfo docinfo ∧
      ∃ Z p, XmlOf env (numberedFrom p (docinfoEvs d docinfo)) Z ∧ BalX (joined Z) T2 := by
  obtain ⟨f, body, sorted, hf, hsec, -, hev, hshow⟩ := document_parts rd filetime d hrd h
  obtain ⟨es, X, g1, g2, g3, -⟩ := document_shown env rd filetime d hrd h
  obtain rfl : es = _ := ofList_injective (g1.symm.trans hev)
  obtain rfl : X = evs := ofList_injective (g2.symm.trans he)
  let F := fun s : Nat × Bytes => concItem (streamModels rd s.2).out ⟨some d.version, none⟩
  let root := fun s : Nat × Bytes => match body s with
    | .node a _ _ => F s a
    | .nil => ⟨"SectionDef", [], ⟨none, none⟩⟩
  let kids := fun s : Nat × Bytes => match body s with
    | .node _ cs _ => cs
    | .nil => .nil
  have hin : ∀ s ∈ d.sections, ∀ m, .start m ∈ eventsOf ((body s).map (F s)) → IdShows env m := by
    intro s hs m hm
    refine (hshow env).1 m ?_
    simp only [documentElement, element]
    simp only [List.mem_cons, List.mem_append]
    exact .inr (.inl (.inr (.inr (.inl (List.mem_flatMap.2 ⟨s, hs, hm⟩)))))
  have hbody : ∀ s ∈ d.sections, eventsOf ((body s).map (F s)) = element (root s) (eventsOf ((kids s).map (F s))) ∧
      (root s).model = "SectionDef" ∧
      ∀ cs, KidsOf env (root s) (eventsOf ((kids s).map (F s))) cs → SectionOf env rd d.version s cs := by
    intro s hs
    obtain ⟨f, hf, hsb, hp, hb⟩ := hsec s hs
    have hh := section_heard env rd d.version hrd _ s.2 f hf (h.sectionData s hs) _ hb
    have hsb' := hsb
    obtain ⟨i, t, g, hroot, -⟩ := hsb'
    have e1 : root s = F s (.sectionDef (some s.1) t) := by simp only [root, hroot]
    have e2 : kids s = g := by simp only [kids, hroot]
    refine ⟨?_, by rw [e1]; rfl, fun cs hc => ⟨f, t, g, hf, hroot ▸ hsb, hroot ▸ hb, hp, ?_, ?_⟩⟩
    · rw [e1, e2, hroot]
      simp [Forest.map, eventsOf, element]
    · intro x hx
      rw [← hroot] at hx
      exact ⟨hin s hs _ (start_of_item _ _ _ hx), (hh x hx).1, (hh x hx).2, section_derived rd _ s.2 f hf _ hb x hx⟩
    · rw [e1, e2] at hc
      exact hc
  have hflat : (d.sections.flatMap fun s => eventsOf ((body s).map (concItem (streamModels rd s.2).out ⟨some d.version, none⟩))) =
      d.sections.flatMap fun s => element (root s) (eventsOf ((kids s).map (F s))) := by
    apply List.flatMap_congr
    intro s hs
    exact (hbody s hs).1
  obtain ⟨a0, a1, a2, a3, T1, T2, T3, pre, Y, post, p, h1, h2, h3, h4, as1, k1, Z1, p1, h5, h6, h7, Z2, p2, h8, h9⟩ := doc_tree env d.version h.version _ (docinfoEvs d f)
    (d.sections.flatMap fun s => eventsOf ((body s).map (concItem (streamModels rd s.2).out ⟨some d.version, none⟩))) _ rfl
    (treelike_element _ (treelike_flatMap fun t _ => treelike_element _ (treelike_flatMap fun p _ => property_treelike filetime p)))
    ⟨_, (docinfo_part env rd d hrd h f hf).2.2⟩ (treelike_flatMap fun s _ => treelike_eventsOf _) _ g3 (hshow env).1
  rw [hflat] at h2
  obtain ⟨T, hT, hN⟩ := section_nodes env root (fun s => eventsOf ((kids s).map (F s))) d.sections p Y
    (fun s hs => ⟨(hbody s hs).2.1, treelike_eventsOf _⟩) (by
      intro a ha
      rw [← hflat] at ha
      obtain ⟨s, hs, ha⟩ := List.mem_flatMap.1 ha
      exact hin s hs a ha) h2
  obtain rfl := bal_unique h3 hT
  refine ⟨a0, a1, a2, a3, T1, T2, T3, f, h4, sectionNodes_mono _ _ (fun s hs cs hc => (hbody s hs).2.2 cs hc) hN, ?_, hf, Z2, p2, h8, h9⟩
  have hm := (plain_model env "HwpSummaryInfo" [] ⟨none, none⟩ rfl (by decide) (by decide +kernel) (by simp) (by simp) (by simp) (by simp)).1
  have hk := ofList_injective (h5.symm.trans hm)
  simp only [List.cons.injEq] at hk
  rw [hk.2] at h7
  have hin : ∀ m, .start m ∈ element (⟨"PropertySetStream", [("byte_order", .leaf (.str (lowerHex 4 d.summary.byteOrder))),
      ("version", .leaf (.str (Spec.decimal d.summary.version))), ("system_identifier", .leaf (.str (lowerHex 8 d.summary.systemIdentifier))),
      ("clsid", .leaf (.str (guidText d.summary.clsid)))], ⟨none, none⟩⟩ : ModelItem)
      (d.summary.sets.flatMap fun t => setElement filetime t (sorted t)) → IdShows env m := by
    intro m hm
    exact (hshow env).1 m (mem_summary _ _ _ _ _ _ hm)
  obtain ⟨as, k, hs, hks⟩ := shows_start (env := env) rfl (hin _ (List.Mem.head _))
  obtain ⟨Z, rfl, p2, hZ⟩ := xmlOf_element rfl hs h6
  have hZ' := treelike_kids (treelike_flatMap fun t _ => treelike_element _ (treelike_flatMap fun p _ => property_treelike filetime p))
    (fun m hm => hin m (List.mem_cons_of_mem _ (List.mem_append_left _ hm))) hZ
  obtain ⟨K, hK⟩ := kids_bal (kids_append' hks hZ')
  have e : ∀ n, ([] : List XEv) ++ (XEv.start n as :: (k ++ Z ++ [.stop n])) = .start n as :: ((k ++ Z) ++ .stop n :: []) := by
    intro n; simp
  rw [e, joined_element] at h7
  exact ⟨_, K, bal_unique h7 (.elem hK .nil)⟩

/-- The text of the element of a section. -/
theorem sectionOf_text {env : XmlEnv} {rd : ModelReader Fields} {ver : Version} {s : Nat × Bytes} {cs : Forest XNode} (h : SectionOf env rd ver s cs) :
    ∃ f, StreamTree rd s.2 f ∧ (allTexts cs).Perm (noNul (documentText (f.map fun p => itemOf p.1 p.2))) := by
  obtain ⟨f, t, g, hf, ⟨i', t', g', hsb, -, -, htext, -⟩, hb, -, hx, hk⟩ := h
  refine ⟨f, hf, ?_⟩
  rw [kidsOf_texts hk (by simp [concItem]) (hx _ (by simp [eventsOf])).2.1 (by
    intro a ha
    obtain ⟨x, h1, rfl⟩ := start_map _ _ _ ha
    exact (hx x (by simp [eventsOf, h1])).2.1)]
  rw [modelTexts_items _ _ (fun a ha => (hx a (by simp [eventsOf, ha])).2.2.1)]
  rw [starts_eventsOf] at htext
  unfold noNul
  refine List.Perm.filter _ ?_
  simpa [Forest.items, textItem] using htext

end Hwp
