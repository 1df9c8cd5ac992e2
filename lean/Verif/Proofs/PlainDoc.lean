/-
The text of a whole document.
-/
import Verif.Proofs.PlainXml
import Verif.Proofs.Utf8
set_option linter.unusedSimpArgs false
set_option linter.unusedVariables false
set_option autoImplicit false
namespace Hwp
open Spec

theorem xmlOf_split {env : XmlEnv} (a : List (Ev ModelItem)) : ∀ {b : List (Ev ModelItem)} {X : List XEv}, XmlOf env (a ++ b) X →
    ∃ x y, X = x ++ y ∧ XmlOf env a x ∧ XmlOf env b y := by
  induction a with
  | nil => intro b X h; exact ⟨[], X, rfl, .nil, h⟩
  | cons e a ih =>
    intro b X h
    cases h with
    | cons h1 h2 =>
      obtain ⟨x, y, rfl, hx, hy⟩ := ih h2
      exact ⟨_, y, by rw [List.append_assoc], .cons h1 hx, hy⟩

theorem xmlOf_unique {env : XmlEnv} {a : List (Ev ModelItem)} {x y : List XEv} (hx : XmlOf env a x) : XmlOf env a y → x = y := by
  induction hx generalizing y with
  | nil => intro h; cases h; rfl
  | cons h1 _ ih =>
    intro h
    cases h with
    | cons h3 h4 =>
      rw [ih h4, ofList_injective (h1.symm.trans h3)]

theorem numberedFrom_append (a : List (Ev ModelItem)) : ∀ (pre b : List (Ev ModelItem)),
    numberedFrom pre (a ++ b) = numberedFrom pre a ++ numberedFrom (pre ++ a) b := by
  induction a with
  | nil => intro pre b; simp [numberedFrom]
  | cons e a ih =>
    intro pre b
    cases e <;> simp [numberedFrom, ih]

/-- The XML of one element: its start, what is in it, its end. -/
theorem xmlOf_element {env : XmlEnv} {m : ModelItem} {es pre : List (Ev ModelItem)} {X : List XEv} {attrs : List (PyStr × PyStr)} {kids : List XEv}
    (hid : idNameOf m.model = none) (hm : startModel env m = .ofList (.start (lit m.model) attrs :: kids))
    (hX : XmlOf env (numberedFrom pre (element m es)) X) :
    ∃ Y, X = .start (lit m.model) attrs :: (kids ++ Y ++ [.stop (lit m.model)]) ∧ ∃ pre', XmlOf env (numberedFrom pre' es) Y := by
  have hw : withId pre m = m := by unfold withId; rw [hid]
  simp only [element, numberedFrom, numberedFrom_append, hw] at hX
  cases hX with
  | cons h1 h2 =>
    obtain ⟨Y, z, rfl, hY, hz⟩ := xmlOf_split _ h2
    cases hz with
    | cons h3 h4 =>
      cases h4
      obtain rfl := ofList_injective (h1.symm.trans hm)
      obtain rfl := ofList_injective h3
      exact ⟨Y, by simp, _, hY⟩

theorem treelike_kids {env : XmlEnv} {es pre : List (Ev ModelItem)} {X : List XEv} (ht : Treelike es)
    (hs : ∀ m, .start m ∈ es → IdShows env m) (hX : XmlOf env (numberedFrom pre es) X) : Kids X := by
  obtain ⟨F, hF⟩ := ht
  obtain ⟨Y, h1, h2, -⟩ := xml_forest env F _ ((numbered_names es pre).trans hF) (numbered_shows env es pre hs)
  rw [xmlOf_unique hX h1]
  exact h2

theorem joined_element {n : PyStr} {as : List (PyStr × PyStr)} {k r : List XEv} :
    joined (.start n as :: (k ++ .stop n :: r)) = .start n (as.map fun a => (a.1, noNul a.2)) :: (joined k ++ .stop n :: joined r) := by
  simp only [joined]
  rw [joined_before _ _ (by intro t r h; simp [joined] at h)]
  simp [joined]

theorem shows_start {env : XmlEnv} {m : ModelItem} (hid : idNameOf m.model = none) (h : IdShows env m) :
    ∃ attrs kids, startModel env m = .ofList (.start (lit m.model) attrs :: kids) ∧ Kids kids := by
  unfold IdShows at h
  rw [hid] at h
  obtain ⟨attrs, kids, s1, s2, s3, s4⟩ := h
  exact ⟨attrs, kids, s1, s3⟩

/-- The tree of the file of a document. -/
theorem doc_tree (env : XmlEnv) (ver : Version) (hver : ver.length = 4) (S D B : List (Ev ModelItem)) (sum : ModelItem)
    (hsum : sum.model = "HwpSummaryInfo") (hS : Treelike S) (hD : Treelike D) (hB : Treelike B) (X : List XEv)
    (hX : XmlOf env (numbered (documentElement ver (element sum S) D B)) X)
    (hs : ∀ m, .start m ∈ documentElement ver (element sum S) D B → IdShows env m) :
    ∃ a0 a1 a2 a3 T1 T2 T3 pre Y post p, X = pre ++ Y ++ post ∧ XmlOf env (numberedFrom p B) Y ∧ BalX (joined Y) T3 ∧
      xmlTree (joined X) = .node (.elem (lit "HwpDoc") a0) (.node (.elem (lit "HwpSummaryInfo") a1) T1
        (.node (.elem (lit "DocInfo") a2) T2 (.node (.elem (lit "BodyText") a3) T3 .nil))) .nil ∧
      ∃ as k1 Z1 p1, startModel env sum = .ofList (.start (lit sum.model) as :: k1) ∧ XmlOf env (numberedFrom p1 S) Z1 ∧ BalX (joined (k1 ++ Z1)) T1 ∧
        ∃ Z2 p2, XmlOf env (numberedFrom p2 D) Z2 ∧ BalX (joined Z2) T2 := by
  have hdoc := (hwpdoc_shown env ver hver).1
  obtain ⟨Y, rfl, pre, hY⟩ := xmlOf_element (m := ⟨"HwpDoc", [("version", .leaf (.version ver))], ⟨none, none⟩⟩) rfl hdoc hX
  have hs' : ∀ m, .start m ∈ element sum S ++ element ⟨"DocInfo", [], ⟨none, none⟩⟩ D ++ element ⟨"BodyText", [], ⟨none, none⟩⟩ B → IdShows env m := by
    intro m hm
    refine hs m ?_
    simp only [documentElement, element] at hm ⊢
    simp only [List.mem_cons, List.mem_append] at hm ⊢
    exact .inr (.inl hm)
  simp only [numberedFrom_append] at hY
  obtain ⟨Y1, Y3, rfl, hY1, hY3⟩ := xmlOf_split _ hY
  obtain ⟨Y1, Y2, rfl, hY1, hY2⟩ := xmlOf_split _ hY1
  -- summary
  have hsid : idNameOf sum.model = none := by rw [hsum]; rfl
  obtain ⟨a1, k1, hm1, hk1⟩ := shows_start hsid (hs' sum (by simp [element]))
  obtain ⟨Z1, rfl, p1, hZ1⟩ := xmlOf_element hsid hm1 hY1
  have hZ1' := treelike_kids hS (fun m hm => hs' m (by simp [element, hm])) hZ1
  -- DocInfo
  obtain ⟨a2, k2, hm2, hk2⟩ := shows_start (env := env) (m := ⟨"DocInfo", [], ⟨none, none⟩⟩) rfl (docinfo_wrapper_good env)
  have hk2' : k2 = [] := by
    have hm := (plain_model env "DocInfo" [] ⟨none, none⟩ rfl (by decide) (by decide +kernel) (by simp) (by simp) (by simp) (by simp)).1
    have hk := ofList_injective (hm2.symm.trans hm)
    simp only [List.cons.injEq] at hk
    exact hk.2
  obtain ⟨Z2, rfl, p2, hZ2⟩ := xmlOf_element (m := ⟨"DocInfo", [], ⟨none, none⟩⟩) rfl hm2 hY2
  have hZ2' := treelike_kids hD (fun m hm => hs' m (by simp [element, hm])) hZ2
  -- BodyText
  have hm3 := (plain_model env "BodyText" [] ⟨none, none⟩ rfl (by decide) (by decide +kernel) (by simp) (by simp) (by simp) (by simp)).1
  obtain ⟨Z3, rfl, p3, hZ3⟩ := xmlOf_element (m := ⟨"BodyText", [], ⟨none, none⟩⟩) rfl hm3 hY3
  have hZ3' := treelike_kids hB (fun m hm => hs' m (by simp [element, hm])) hZ3
  obtain ⟨T1, hT1⟩ := kids_bal (kids_append' hk1 hZ1')
  obtain ⟨T2, hT2⟩ := kids_bal (kids_append' hk2 hZ2')
  obtain ⟨T3, hT3⟩ := kids_bal hZ3'
  have e : ∀ a0 a3, XEv.start (lit "HwpDoc") a0 :: ([] ++ ((XEv.start (lit sum.model) a1 :: (k1 ++ Z1 ++ [.stop (lit sum.model)])) ++
      (.start (lit "DocInfo") a2 :: (k2 ++ Z2 ++ [.stop (lit "DocInfo")])) ++
      (.start (lit "BodyText") a3 :: ([] ++ Z3 ++ [.stop (lit "BodyText")]))) ++ [.stop (lit "HwpDoc")]) =
      .start (lit "HwpDoc") a0 :: ((.start (lit sum.model) a1 :: ((k1 ++ Z1) ++ .stop (lit sum.model) ::
        (.start (lit "DocInfo") a2 :: ((k2 ++ Z2) ++ .stop (lit "DocInfo") ::
          (.start (lit "BodyText") a3 :: (Z3 ++ .stop (lit "BodyText") :: [])))))) ++ .stop (lit "HwpDoc") :: []) := by
    intro a0 a3; simp
  refine ⟨[(lit "version", noNul ((ver.map fun (n : Nat) => Spec.decimal n).intersperse (lit ".")).flatten)], a1.map fun a => (a.1, noNul a.2),
    a2.map fun a => (a.1, noNul a.2), (hyphens (showPlain [])).map fun a => (a.1, noNul a.2), T1, T2, T3,
    [.start (lit "HwpDoc") [(lit "version", ((ver.map fun (n : Nat) => Spec.decimal n).intersperse (lit ".")).flatten)]] ++ (XEv.start (lit sum.model) a1 :: (k1 ++ Z1 ++ [.stop (lit sum.model)])) ++
      (.start (lit "DocInfo") a2 :: (k2 ++ Z2 ++ [.stop (lit "DocInfo")])) ++ [.start (lit "BodyText") (hyphens (showPlain []))], Z3,
      [.stop (lit "BodyText"), .stop (lit "HwpDoc")], p3, by simp, hZ3, hT3, ?_, a1, k1, Z1, p1, hm1, hZ1, hT1, Z2, p2, hZ2, by simpa [hk2'] using hT2⟩
  rw [e, joined_element, joined_element, joined_element, joined_element]
  have hb := BalX.elem (n := lit "HwpDoc") (as := [(lit "version", noNul ((ver.map fun (n : Nat) => Spec.decimal n).intersperse (lit ".")).flatten)])
    (BalX.elem (n := lit sum.model) (as := a1.map fun a => (a.1, noNul a.2)) hT1 (BalX.elem (n := lit "DocInfo") (as := a2.map fun a => (a.1, noNul a.2)) hT2
      (BalX.elem (n := lit "BodyText") (as := (hyphens (showPlain [])).map fun a => (a.1, noNul a.2)) hT3 .nil))) .nil
  have ht := bal_tree hb .nil []
  unfold xmlTree
  simp only [joined, List.map_cons, List.map_nil]
  rw [ht, hsum]
  simp [Forest.append]

/-- The text of the file of a document is the text of its sections. -/
theorem doc_text (env : XmlEnv) (ver : Version) (hver : ver.length = 4) (S D B : List (Ev ModelItem)) (sum : ModelItem)
    (hsum : sum.model = "HwpSummaryInfo") (hS : Treelike S) (hD : Treelike D) (hB : Treelike B) (X : List XEv)
    (hX : XmlOf env (numbered (documentElement ver (element sum S) D B)) X)
    (hs : ∀ m, .start m ∈ documentElement ver (element sum S) D B → IdShows env m)
    (hh : ∀ m, .start m ∈ B → IdHeard env m) (hp : TextPairs (B.map evName)) :
    plaintextXsl (xmlTree (joined X)) = noNul (streamM 0 B) ∧
      ∃ pre Y post, X = pre ++ Y ++ post ∧ streamM 0 B = streamX 0 Y := by
  obtain ⟨a0, a1, a2, a3, T1, T2, T3, pre, Y, post, p, h1, h2, h3, h4, -⟩ := doc_tree env ver hver S D B sum hsum hS hD hB X hX hs
  obtain ⟨hpl, hst⟩ := stream_models h2 (numbered_heard env B p hh) (by rw [numbered_names]; exact hp)
  refine ⟨?_, pre, Y, post, h1, by rw [hst, numbered_stream]⟩
  have := stream_bal h3 0 [] (by rw [List.append_nil]; exact textPlain_joined _ hpl)
  simp only [List.append_nil, if_true, streamX] at this
  rw [h4]
  simp only [plaintextXsl, forEach, if_true, lit_eq, show ¬ ("HwpSummaryInfo" = "BodyText") by decide, if_false,
    List.nil_append, List.append_nil, show ¬ ("DocInfo" = "BodyText") by decide]
  rw [← this, stream_joined, hst, numbered_stream]

theorem hides_scalar (n s : PyStr) (h : hides n = some s) : ∀ c ∈ s, Scalar c := by
  unfold hides at h
  split at h
  · cases h; simp
  split at h
  · cases h; decide +kernel
  split at h
  · cases h; decide +kernel
  cases h

/-! ### Sections -/

theorem items_depths {α : Type} (f : Forest α) : ∀ d, (depthsOf d f).map (·.2) = f.items := by
  induction f with
  | nil => intro d; rfl
  | node a cs sibs ih1 ih2 => intro d; simp [depthsOf, Forest.items, ih1, ih2]

theorem items_map {α β : Type} (F : α → β) (f : Forest α) : (f.map F).items = f.items.map F := by
  induction f with
  | nil => rfl
  | node a cs sibs ih1 ih2 => simp [Forest.map, Forest.items, ih1, ih2]

theorem itemOf_sect (i : Nat) (m : PModel Fields) : sectItem (itemOf i m) = [] ∨ sectItem (itemOf i m) = [(none, i)] :=
  itemOf_cases i m (fun a => sectItem a = [] ∨ sectItem a = [(none, i)]) (fun _ => .inl rfl) (fun _ => .inl rfl) (fun _ => .inl rfl)
    (fun _ => .inl rfl) (fun _ => .inl rfl) (fun _ => .inr rfl) (fun _ => .inl rfl) (fun _ => .inl rfl) (fun _ => .inl rfl) (fun _ => .inl rfl)
    (fun _ => .inl rfl) (fun _ => ⟨fun _ => .inl rfl, fun _ => .inl rfl, fun _ => .inl rfl, fun _ => .inl rfl⟩)

theorem sect_count (t : Nat) (ps : List (Nat × PModel Fields)) (h : (ps.map (·.1)).Nodup) :
    (((ps.map fun p => itemOf p.1 p.2).flatMap sectItem).filter fun p => p.2 == t).length ≤ 1 ∧
    (t ∉ ps.map (·.1) → (((ps.map fun p => itemOf p.1 p.2).flatMap sectItem).filter fun p => p.2 == t) = []) := by
  induction ps with
  | nil => exact ⟨Nat.zero_le _, fun _ => rfl⟩
  | cons p ps ih =>
    simp only [List.map_cons, List.nodup_cons] at h
    obtain ⟨i1, i2⟩ := ih h.2
    simp only [List.map_cons, List.flatMap_cons, List.filter_append, List.mem_cons, not_or, List.length_append]
    rcases itemOf_sect p.1 p.2 with hs | hs
    · rw [hs]
      exact ⟨by simpa using i1, fun hn => by rw [i2 hn.2]; rfl⟩
    · rw [hs]
      by_cases hp : p.1 = t
      · subst hp
        rw [i2 h.1]
        exact ⟨by simp, fun hn => absurd rfl hn.1⟩
      · have hq : List.filter (fun q : Option Nat × Nat => q.2 == t) [(none, p.1)] = [] := by simp [hp]
        rw [hq]
        exact ⟨by simpa using i1, fun hn => by rw [i2 hn.2]; rfl⟩

theorem tree_defCount {rd : ModelReader Fields} {s : Bytes} {f : Forest (Nat × PModel Fields)} (h : StreamTree rd s f)
    (i : Option Nat) (t : Nat) (hm : .sectionDef i t ∈ allItems (f.map fun p => itemOf p.1 p.2)) :
    defCount t (f.map fun p => itemOf p.1 p.2) = 1 := by
  have hn : (f.items.map (·.1)).Nodup := by
    rw [← items_depths f 0, streamTree_depths h]
    have : (((streamModels rd s).out.mapIdx fun i m => (m.record.level, i, m)).map (·.2)).map (·.1) =
        List.range (streamModels rd s).out.length := by
      apply List.ext_getElem <;> simp
    rw [this]
    exact List.nodup_range
  have h1 := (sect_count t f.items hn).1
  rw [defCount_sect, items_map]
  rw [allItems_eq, items_map] at hm
  have : (i, t) ∈ (((f.items.map fun p => itemOf p.1 p.2).flatMap sectItem).filter fun p => p.2 == t) :=
    List.mem_filter.2 ⟨List.mem_flatMap.2 ⟨_, hm, by simp [sectItem]⟩, by simp⟩
  have := List.length_pos_of_mem this
  omega

theorem section_of_records {rd : ModelReader Fields} {s : Bytes} {f : Forest (Nat × PModel Fields)} (h : StreamTree rd s f)
    (sid : Option Nat) (hp : ProperSection (f.map fun p => itemOf p.1 p.2)) (b : Forest Item)
    (hb : sectionEvents sid (.ofList (eventsOf (f.map fun p => itemOf p.1 p.2))) = .ofList (eventsOf b)) :
    Leafy b ∧ SectionText (f.map fun p => itemOf p.1 p.2) (shownText b) := by
  obtain ⟨h1, i, t, X, h2, h3⟩ := section_text sid _ hp b hb
  obtain ⟨h4, h5⟩ := h3 (tree_defCount h i t h2)
  exact ⟨h1, i, t, X, h2, h4, h5⟩

theorem section_derived (rd : ModelReader Fields) (sid : Option Nat) (s : Bytes)
    (f : Forest (Nat × PModel Fields)) (hf : StreamTree rd s f) (b : Forest Item)
    (e : sectionEvents sid (.ofList (eventsOf (f.map fun p => itemOf p.1 p.2))) = .ofList (eventsOf b)) (x : Item) (h1 : .start x ∈ eventsOf b) :
    Derived ((streamModels rd s).out.mapIdx itemOf) x := by
  have hin : AllIn (Derived ((streamModels rd s).out.mapIdx itemOf)) (sectionEvents sid (.ofList (eventsOf (f.map fun p => itemOf p.1 p.2)))).out := by
    apply section_in
    intro e' he'
    obtain ⟨p, h2, h3⟩ := start_map _ _ _ (start_of_mem _ _ he')
    rw [h3]
    refine ⟨?_, itemOf_notMade _ _⟩
    rw [List.mem_mapIdx]
    have := tree_model hf p h2
    obtain ⟨hl, hx⟩ := List.getElem?_eq_some_iff.1 this
    exact ⟨p.1, hl, by rw [hx]⟩
  rw [e] at hin
  exact hin _ h1

theorem section_heard (env : XmlEnv) (rd : ModelReader Fields) (ver : Version) (hrd : ReadsDecls ver rd) (sid : Option Nat) (s : Bytes)
    (f : Forest (Nat × PModel Fields)) (hf : StreamTree rd s f) (hb : BinDataOk (streamModels rd s).out) (b : Forest Item)
    (e : sectionEvents sid (.ofList (eventsOf (f.map fun p => itemOf p.1 p.2))) = .ofList (eventsOf b)) (x : Item) (h1 : .start x ∈ eventsOf b) :
    IdHeard env (concItem (streamModels rd s).out (streamCtx ver) x) ∧ Sounds x (concItem (streamModels rd s).out (streamCtx ver) x) := by
  have hx := section_derived rd sid s f hf b e x h1
  rw [tree_parse hf] at hx hb ⊢
  exact ⟨derived_heard env ver rd hrd _ hb x hx, derived_sounds ver rd hrd _ _ x hx⟩

/-! ### The document -/

theorem stream_sections (F : Nat × Bytes → Item → ModelItem) (body : Nat × Bytes → Forest Item) (ss : List (Nat × Bytes))
    (h : ∀ s ∈ ss, AllSound (F s) (body s) ∧ Leafy (body s)) :
    streamM 0 (ss.flatMap fun s => eventsOf ((body s).map (F s))) = ss.flatMap (fun s => shownText (body s)) ∧
    TextPairs ((ss.flatMap fun s => eventsOf ((body s).map (F s))).map evName) := by
  induction ss with
  | nil => exact ⟨rfl, trivial⟩
  | cons s ss ih =>
    obtain ⟨i1, i2⟩ := ih fun s hs => h s (by simp [hs])
    obtain ⟨h1, h2⟩ := h s (by simp)
    simp only [List.flatMap_cons, List.map_append]
    exact ⟨by rw [stream_items _ _ h1 h2, if_pos rfl, i1], pairs_items _ _ h1 h2 _ i2⟩

theorem writable_scalar {t : PyStr} (h : Writable t) : ∀ c ∈ noNul t, Scalar c := by
  intro c hc
  simp only [noNul, List.mem_filter] at hc
  rcases h c hc.1 with h | h
  · exact xmlChar_scalar h
  · subst h; decide

theorem writable_stream (X : List XEv) (hv : ∀ e ∈ X, ValuesOk e) : ∀ h, ∀ c ∈ noNul (streamX h X), Scalar c := by
  induction X with
  | nil => intro h c hc; cases hc
  | cons e X ih =>
    have ih := ih fun e he => hv e (by simp [he])
    have he := hv e (by simp)
    intro h c hc
    cases e with
    | text t =>
      simp only [streamX, noNul_append, List.mem_append] at hc
      rcases hc with hc | hc
      · split at hc
        · exact writable_scalar he.1 c hc
        · cases hc
      · exact ih _ _ hc
    | start n as =>
      simp only [streamX] at hc
      split at hc
      · rename_i s hs
        rw [noNul_append, List.mem_append] at hc
        rcases hc with hc | hc
        · split at hc
          · rw [hides_noNul n s hs] at hc
            exact hides_scalar n s hs c hc
          · cases hc
        · exact ih _ _ hc
      · exact ih _ _ hc
    | stop n =>
      simp only [streamX] at hc
      split at hc
      · exact ih _ _ hc
      · rw [noNul_append, List.mem_append] at hc
        rcases hc with hc | hc
        · split at hc
          · have : c = 10 := by simpa [noNul] using hc
            subst this; decide
          · cases hc
        · exact ih _ _ hc

end Hwp
