/-
The elements of paragraphs and of text: their numbers.
-/
import Verif.Proofs.InfoFields
import Verif.Proofs.OdtStyles
set_option linter.unusedSimpArgs false
set_option linter.unusedVariables false
set_option autoImplicit false
namespace Hwp
open Spec

/-! ### Starts of elements -/

/-- The attributes at the starts of elements of this name. -/
def startsNamed (name : String) : List XEv → List (List (PyStr × PyStr))
  | [] => []
  | .start n as :: X => (if n = lit name then [as] else []) ++ startsNamed name X
  | .stop _ :: X => startsNamed name X
  | .text _ :: X => startsNamed name X

theorem startsNamed_append (name : String) (X Y : List XEv) : startsNamed name (X ++ Y) = startsNamed name X ++ startsNamed name Y := by
  induction X with
  | nil => rfl
  | cons e X ih => cases e <;> simp [startsNamed, ih]

theorem bal_starts {X : List XEv} {T : Forest XNode} (h : BalX X T) (name : String) : (elementsNamed name T).map (·.1) = startsNamed name X := by
  induction h with
  | nil => rfl
  | text _ ih => simpa [elementsNamed, startsNamed] using ih
  | @elem n as k K r T _ _ ih1 ih2 =>
    simp only [elementsNamed, startsNamed, startsNamed_append, List.map_append, ih1, ih2, List.append_assoc]
    congr 1
    split <;> rfl

theorem joined_starts (name : String) (X : List XEv) : startsNamed name (joined X) = (startsNamed name X).map fun as => as.map fun a => (a.1, noNul a.2) := by
  induction X with
  | nil => rfl
  | cons e X ih =>
    cases e with
    | start n as =>
      simp only [joined, startsNamed, ih, List.map_append]
      congr 1
      split <;> rfl
    | stop n => simpa only [joined, startsNamed] using ih
    | text t =>
      simp only [startsNamed]
      rw [← ih]
      simp only [joined]
      split
      · next h => rw [h]; simp [startsNamed]
      · split <;> simp [startsNamed]

theorem starts_none (name : String) (X : List XEv) (h : ∀ n as, .start n as ∈ X → n ≠ lit name) : startsNamed name X = [] := by
  induction X with
  | nil => rfl
  | cons e X ih =>
    have i := ih fun n as hn => h n as (by simp [hn])
    cases e with
    | start n as => simp only [startsNamed, if_neg (h n as (by simp)), i, List.nil_append]
    | _ => exact i

/-! ### Numbers of paragraphs -/

/-- The element of a paragraph with this number. -/
def ParaStart (n : Nat) (as : List (PyStr × PyStr)) : Prop :=
  attrOf as "paragraph-id" = some (Spec.decimal n) ∧ (∃ s : Nat, attrOf as "style-id" = some (Spec.decimal s)) ∧ ∃ s : Nat, attrOf as "parashape-id" = some (Spec.decimal s)

/-- The element of a model with its number. -/
def NumOk (env : XmlEnv) (m : ModelItem) : Prop :=
  ∀ pre, ∃ attrs kids, startModel env (withId pre m) = .ofList (.start (lit m.model) attrs :: kids) ∧ Silent kids ∧
    (m.model = "Paragraph" → ParaStart (countModel "Paragraph" pre) (attrs.map fun a => (a.1, noNul a.2)))

theorem para_starts {env : XmlEnv} : ∀ (es pre : List (Ev ModelItem)) (X : List XEv), (∀ m, .start m ∈ es → NumOk env m) → XmlOf env (numberedFrom pre es) X →
    List.Forall₂ ParaStart ((List.range (countModel "Paragraph" es)).map (countModel "Paragraph" pre + ·)) (startsNamed "Paragraph" (joined X)) := by
  intro es
  induction es with
  | nil => intro pre X _ hX; cases hX; exact .nil
  | cons e es ih =>
    intro pre X hs hX
    cases e with
    | stop m =>
      simp only [numberedFrom] at hX
      cases hX with
      | cons g1 g2 =>
        have i := ih _ _ (fun m hm => hs m (by simp [hm])) g2
        obtain rfl := ofList_injective g1
        rw [joined_starts] at i ⊢
        simpa [countModel, countModel_append, startsNamed] using i
    | start m =>
      obtain ⟨attrs, kids, h1, h2, h3⟩ := hs m (by simp) pre
      simp only [numberedFrom] at hX
      cases hX with
      | cons g1 g2 =>
        have i := ih _ _ (fun m hm => hs m (by simp [hm])) g2
        obtain rfl := ofList_injective (h1.symm.trans g1)
        have hk : startsNamed "Paragraph" kids = [] := starts_none _ _ fun n as hn e => h2 n as hn (e ▸ by decide)
        rw [joined_starts] at i ⊢
        simp only [List.cons_append, startsNamed, startsNamed_append, hk, List.nil_append, List.map_append, countModel_append, countModel] at i ⊢
        by_cases hp : m.model = "Paragraph"
        · simp only [hp, if_true, List.map_cons, List.map_nil, List.singleton_append, Nat.add_zero] at i ⊢
          rw [Nat.add_comm 1, List.range_succ_eq_map, List.map_cons, List.map_map]
          refine .cons (by simpa using h3 hp) ?_
          refine Eq.subst (motive := fun l => List.Forall₂ ParaStart l _) ?_ i
          apply List.map_congr_left
          intro k _
          simp only [Function.comp_def]
          omega
        · have hn : lit m.model ≠ lit "Paragraph" := by rw [Ne, lit_eq]; exact hp
          simp only [hp, if_false, if_neg hn, List.map_nil, List.nil_append, Nat.add_zero, Nat.zero_add] at i ⊢
          exact i

/-! ### Models -/

theorem heard_num {env : XmlEnv} {m : ModelItem} (h : IdHeard env m) (hm : m.model ≠ "Paragraph") : NumOk env m := by
  intro pre
  have hh : Heard env (withId pre m) := by
    unfold IdHeard at h
    unfold withId
    cases hk : idNameOf m.model with
    | none => rw [hk] at h; exact h
    | some k => rw [hk] at h; exact h _
  obtain ⟨attrs, kids, h1, -⟩ := id hh
  have hmod : (withId pre m).model = m.model := by unfold withId; split <;> rfl
  refine ⟨attrs, kids, by rw [← hmod]; exact h1, heard_silent hh h1, fun e => absurd e hm⟩

theorem sole_num {env : XmlEnv} {m : ModelItem} (h : SoleElement env m) : NumOk env m := by
  obtain ⟨h1, h2, attrs, h3⟩ := h
  intro pre
  refine ⟨attrs, [], by rw [show withId pre m = m by unfold withId; rw [h1]]; exact h3, (fun n as hn => by cases hn), ?_⟩
  intro e
  rw [e] at h2
  exact absurd (show lit "Paragraph" ∈ loudNames by decide) h2

theorem record_num (env : XmlEnv) (ver : Version) (rd : ModelReader Fields) (hrd : ReadsDecls ver rd) (rs : Gen Record) (i : Nat) (m : PModel Fields)
    (hm : (parseModels rd rs).out[i]? = some m) (ht : m.type ∉ paragraphParts) (hb : m.type ≠ "BinData" ∨ "bindata" ∈ m.content.map (·.1)) :
    NumOk env ⟨m.type, m.content, ⟨some ver, none⟩⟩ := by
  by_cases hp : m.type = "Paragraph"
  · intro pre
    obtain ⟨parts, plain, h1, h2, h3, h4, -⟩ := Props.C71_element_of_record env ver rd hrd rs i m hm ht hb _
      (idsFor_one (t := m.type) (k := "paragraph_id") (countModel "Paragraph" pre) (by decide) (by rw [hp]; decide))
    have hty := record_type ver rd hrd rs i m hm
    have hw : withId pre ⟨m.type, m.content, ⟨some ver, none⟩⟩ =
        ⟨m.type, m.content ++ [("paragraph_id", .leaf (.int (countModel "Paragraph" pre : Nat)))], ⟨some ver, none⟩⟩ := by
      unfold withId
      simp only [hp, show idNameOf "Paragraph" = some "paragraph_id" from rfl]
    have hch : classChain m.type = [Decl.Paragraph] := by rw [hp]; rfl
    refine ⟨_, _, by rw [hw]; exact h3, (fun n as hn => quiet_parts env _ _ _ (chain_quiet _ hty) _ hn), fun _ => ?_⟩
    rw [hch] at h1 h4 ⊢
    obtain ⟨fs, rfl, hfs⟩ : ∃ fs, parts = [fs] ∧ FieldsOf ⟨some ver, none⟩ Decl.Paragraph [] fs := by
      match parts, h1 with
      | [fs], h1 => exact ⟨fs, rfl, h1.1⟩
      | [], h1 => simp [PartsOf] at h1
      | _ :: _ :: _, h1 => simp [PartsOf] at h1
    obtain rfl : plain = [] := by
      rcases h2 with ⟨-, h5⟩ | ⟨h2, -⟩
      · exact h5
      · rw [hp] at h2; exact absurd h2 (by decide)
    have hd : ∀ k : Nat, noNul (Spec.decimal k) = Spec.decimal k := fun k => by rw [decimal_nat, noNul_natStr]
    have nod := h4.2.1
    have key : ∀ (name : String) (v : PyStr), (lit name, v) ∈ hyphens ((showParts env ⟨some ver, none⟩ [Decl.Paragraph] [fs]).1 ++
        showPlain ([] ++ [("paragraph_id", .leaf (.int (countModel "Paragraph" pre : Nat)))])) → ∀ w, noNul v = w →
        attrOf ((hyphens ((showParts env ⟨some ver, none⟩ [Decl.Paragraph] [fs]).1 ++
          showPlain ([] ++ [("paragraph_id", .leaf (.int (countModel "Paragraph" pre : Nat)))]))).map fun a => (a.1, noNul a.2)) name = some w := by
      rintro name v hv w rfl
      refine attrOf_mem ?_ (List.mem_map.2 ⟨(lit name, v), hv, rfl⟩)
      rw [List.map_map]
      exact nod
    have int : ∀ (name key' : String) (p : Prim), p ≠ .WCHAR → (∀ n, InRange p n → 0 ≤ n) → sureTy name Decl.Paragraph = some (.prim (.int p)) →
        (lit key' = (lit name).map fun c => if c = 0x5F then 0x2D else c) →
        ∃ s : Nat, attrOf ((hyphens ((showParts env ⟨some ver, none⟩ [Decl.Paragraph] [fs]).1 ++
          showPlain ([] ++ [("paragraph_id", .leaf (.int (countModel "Paragraph" pre : Nat)))]))).map fun a => (a.1, noNul a.2)) key' = some (Spec.decimal s) := by
      intro name key' p hw hpos hty hk
      obtain ⟨acc, v, a1, a2, a3⟩ := sure_field env ⟨some ver, none⟩ name _ _ [] fs hfs (by decide +kernel) hty
      obtain ⟨n, rfl, hr⟩ := int_of_shaped a2
      obtain ⟨k, rfl⟩ : ∃ k : Nat, n = k := ⟨n.toNat, (Int.toNat_of_nonneg (hpos n hr)).symm⟩
      refine ⟨k, key key' (Spec.decimal k) ?_ _ (hd k)⟩
      have hs : showPrim env (.int p) (.int k) = Spec.decimal k := by cases p <;> first | rfl | exact absurd rfl hw
      simp only [hyphens, List.mem_map]
      refine ⟨(lit name, Spec.decimal k), List.mem_append_left _ ?_, Prod.ext hk.symm rfl⟩
      simp only [showParts, List.append_nil]
      exact a3 _ (by simp [showTy, hs])
    refine ⟨?_, int "style_id" "style-id" .BYTE (by decide) (fun n h => h.1) rfl (by decide +kernel), int "parashape_id" "parashape-id" .UINT16 (by decide) (fun n h => h.1) rfl (by decide +kernel)⟩
    refine key "paragraph-id" (Spec.decimal (countModel "Paragraph" pre : Nat)) ?_ _ (hd _)
    simp only [hyphens, List.mem_map]
    refine ⟨(lit "paragraph_id", Spec.decimal (countModel "Paragraph" pre : Nat)), List.mem_append_right _ (by simp [showPlain, plainText]), Prod.ext ?_ rfl⟩
    show (lit "paragraph_id").map (fun c => if c = 0x5F then 0x2D else c) = lit "paragraph-id"
    decide +kernel
  · exact heard_num (record_heard env ver rd hrd rs i m hm ht hb) hp

theorem derived_num (env : XmlEnv) (ver : Version) (rd : ModelReader Fields) (hrd : ReadsDecls ver rd) (rs : Gen Record) (a : Item)
    (h : Derived ((parseModels rd rs).out.mapIdx itemOf) a) (hh : IdHeard env (concItem (parseModels rd rs).out ⟨some ver, none⟩ a)) :
    NumOk env (concItem (parseModels rd rs).out ⟨some ver, none⟩ a) := by
  by_cases hp : (concItem (parseModels rd rs).out ⟨some ver, none⟩ a).model = "Paragraph"
  · have hrec : a ∈ (parseModels rd rs).out.mapIdx itemOf → NumOk env (concItem (parseModels rd rs).out ⟨some ver, none⟩ a) := by
      intro ha
      obtain ⟨i, m, hm, rfl⟩ := mem_items ha
      rw [concItem_itemOf hm] at hp ⊢
      replace hp : m.type = "Paragraph" := hp
      exact record_num env ver rd hrd rs i m hm (by rw [hp]; decide) (.inl (by rw [hp]; decide))
    cases a with
    | sectionDef o t =>
      obtain ⟨o', h'⟩ := h
      obtain ⟨i, m, hm, e⟩ := mem_items h'
      obtain ⟨h1, -, rfl⟩ := itemOf_sectionDef e.symm
      cases o <;> simp [concItem, recordItem, contentAt, hm, h1] at hp
    | tableBody o t =>
      obtain ⟨o', h'⟩ := h
      obtain ⟨i, m, hm, e⟩ := mem_items h'
      obtain ⟨h1, -, rfl⟩ := itemOf_tableBody e.symm
      cases o <;> simp [concItem, recordItem, contentAt, hm, h1] at hp
    | lineSeg l =>
      obtain ⟨o, k⟩ := l
      cases o <;> simp [concItem] at hp
    | text s sh l => simp [concItem] at hp
    | controlChar code kind sh => simp [concItem] at hp
    | columnSet => simp [concItem] at hp
    | tableRow => simp [concItem] at hp
    | paraText c t => exact absurd h (by simp [Derived])
    | paraCharShape c t => exact absurd h (by simp [Derived])
    | paraLineSeg c t => exact absurd h (by simp [Derived])
    | paraRangeTag t => exact absurd h (by simp [Derived])
    | paragraph n t => exact hrec h
    | tableCell t => exact hrec h
    | listHeader c t => exact hrec h
    | field c t => exact hrec h
    | tableControl t => exact hrec h
    | gshapeControl t => exact hrec h
    | control c t => exact hrec h
    | shapeComponent t => exact hrec h
    | other c t => exact hrec h
  · exact heard_num hh hp

/-! ### Documents -/

theorem root_bal {X : List XEv} (h : OneRoot X) : ∃ T, BalX (joined X) T ∧ xmlTree (joined X) = T := by
  cases X with
  | nil => cases h
  | cons e X =>
    cases e with
    | start n as =>
      have h2 := joined_inside _ _ h
      obtain ⟨k, r, T, e, h3, h4⟩ := inside_bal _ _ _ _ (Nat.le_refl _) h2
      simp only [Inside] at h4
      subst h4
      have hb := BalX.elem (n := n) (as := as.map fun a => (a.1, noNul a.2)) h3 .nil
      refine ⟨_, by simpa only [joined, e] using hb, ?_⟩
      have ht := bal_tree hb .nil []
      unfold xmlTree
      simp only [joined, e]
      rw [ht]
      simp [Forest.append]
    | _ => cases h

/-- The paragraphs of the XML file of a document have the numbers from 0, in their order. -/
theorem doc_paragraphs (env : XmlEnv) (rd : ModelReader Fields) (filetime : Nat → PyStr) (d : DocSource) (hrd : ReadsDecls d.version rd)
    (h : ProperDocument rd d) (hd : d.bindata = none) (evs : List XEv) (he : documentXml env rd filetime d = .ofList evs) :
    ∃ n, List.Forall₂ ParaStart (List.range n) ((elementsNamed "Paragraph" (xmlTree (joined evs))).map (·.1)) := by
  obtain ⟨f, body, sorted, hf, hsec, -, hev, hshow⟩ := document_parts rd filetime d hrd h
  obtain ⟨es, X, g1, g2, g3, g4, -⟩ := document_shown env rd filetime d hrd h
  obtain rfl : es = _ := ofList_injective (g1.symm.trans hev)
  obtain rfl : X = evs := ofList_injective (g2.symm.trans he)
  have plainOk : ∀ name, name ∈ ["HwpSummaryInfo", "DocInfo", "BodyText"] → NumOk env ⟨name, [], ⟨none, none⟩⟩ := by
    intro name hn
    refine sole_num ⟨?_, ?_, _, (plain_model env name [] ⟨none, none⟩ ?_ ?_ ?_ (by simp) (by simp) (by simp) (by simp)).1⟩
    all_goals
      simp only [List.mem_cons, List.not_mem_nil, or_false] at hn
      rcases hn with rfl | rfl | rfl
    all_goals first | rfl | decide +kernel
  have hnum : ∀ m, .start m ∈ documentElement d.version
        (summaryElement d.summary (d.summary.sets.flatMap fun t => setElement filetime t (sorted t)))
        (docinfoEvs d f)
        (d.sections.flatMap fun s => eventsOf ((body s).map (concItem (streamModels rd s.2).out ⟨some d.version, none⟩))) → NumOk env m := by
    refine all_element ?_ ?_
    · exact sole_num ⟨rfl, (show lit "HwpDoc" ∉ loudNames by decide +kernel), _, (hwpdoc_shown env d.version h.version).1⟩
    · intro a ha
      simp only [List.mem_append] at ha
      rcases ha with (ha | ha) | ha
      · exact all_element (plainOk _ (by simp)) (fun a ha => sole_num (summary_sole env filetime d.summary sorted a ha)) a ha
      · refine all_element (plainOk _ (by simp)) (fun a ha => ?_) a ha
        rw [show docinfoEvs d f = eventsOf (f.map (recItem d.version)) by simp only [docinfoEvs, hd]; rfl] at ha
        obtain ⟨q, hq, rfl⟩ := start_map _ _ _ ha
        have hm := tree_model hf q hq
        have hmem := List.mem_of_getElem? hm
        refine record_num env d.version rd hrd (readRecords d.docinfo) q.1 q.2 (by rw [← tree_parse hf]; exact hm) (h.docinfoTypes q.2 hmem) ?_
        by_cases e : q.2.type = "BinData"
        · exact .inr (h.docinfoData q.2 hmem e)
        · exact .inl e
      · refine all_element (plainOk _ (by simp)) (all_flatMap fun s hs a ha => ?_) a ha
        obtain ⟨g, hg, hsb, hp, hb⟩ := hsec s hs
        obtain ⟨x, hx, rfl⟩ := start_map _ _ _ ha
        have h1 := section_heard env rd d.version hrd _ s.2 g hg (h.sectionData s hs) _ hb x hx
        have h2 := section_derived rd _ s.2 g hg _ hb x hx
        rw [tree_parse hg] at h1 h2 ⊢
        exact derived_num env d.version rd hrd _ x h2 h1.1
  have key := para_starts _ [] _ hnum g3
  obtain ⟨T, hT, e⟩ := root_bal g4
  simp only [countModel, Nat.zero_add, List.map_id'] at key
  rw [e, bal_starts hT]
  exact ⟨_, key⟩

/-- The paragraphs have distinct numbers. -/
theorem doc_numbered (env : XmlEnv) (rd : ModelReader Fields) (filetime : Nat → PyStr) (d : DocSource) (hrd : ReadsDecls d.version rd)
    (h : ProperDocument rd d) (hd : d.bindata = none) (evs : List XEv) (he : documentXml env rd filetime d = .ofList evs) :
    ParagraphsNumbered (xmlTree (joined evs)) ∧ ∀ p ∈ elementsNamed "Paragraph" (xmlTree (joined evs)), ∃ n, ParaStart n p.1 := by
  obtain ⟨n, hn⟩ := doc_paragraphs env rd filetime d hrd h hd evs he
  have all : ∀ p ∈ elementsNamed "Paragraph" (xmlTree (joined evs)), ∃ n, ParaStart n p.1 := by
    intro p hp
    have hm : p.1 ∈ (elementsNamed "Paragraph" (xmlTree (joined evs))).map (·.1) := List.mem_map_of_mem hp
    obtain ⟨i, hi, e⟩ := List.getElem_of_mem hm
    have := List.Forall₂.get hn (i := i) (by rw [hn.length_eq]; exact hi) hi
    simp only [List.get_eq_getElem, e] at this
    exact ⟨_, this⟩
  refine ⟨⟨fun p hp => ?_, ?_⟩, all⟩
  · obtain ⟨n, hn⟩ := all p hp
    exact ⟨n, hn.1⟩
  · have e : ∀ (ns : List Nat) (as : List (List (PyStr × PyStr))), List.Forall₂ ParaStart ns as →
        as.map (fun a => attrOf a "paragraph-id") = ns.map fun n => some (natStr n) := by
      intro ns as h
      induction h with
      | nil => rfl
      | cons h _ ih => simp only [List.map_cons, ih, h.1, decimal_nat]
    have := e _ _ hn
    rw [List.map_map] at this
    simp only [Function.comp_def] at this
    rw [this]
    refine List.Nodup.map ?_ List.nodup_range
    intro a b hab
    exact natStr_inj (Option.some.inj hab)

end Hwp
