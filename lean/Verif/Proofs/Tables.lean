/-
The tables of the conversions to HTML and ODT.
-/
import Verif.Proofs.Pictures
import Verif.Proofs.TablesRows
import Verif.Proofs.TablesLayout
set_option linter.unusedSimpArgs false
set_option linter.unusedVariables false
set_option autoImplicit false
namespace Hwp
open Spec

/-! ### In view and out of view -/

theorem walkTables_all {M P : Type} {s : Sheet M} {v : Places P} {ways : P → List M} (h : Agrees s v ways) (shows : M → List (PyStr × PyStr) → Bool) (seen : P → List (PyStr × PyStr) → Bool)
    (hs : ∀ p as, ((ways p).filter (shows · as)).length = if seen p as then 1 else 0) (T : Forest XNode) :
    ∀ p, ((ways p).flatMap (walkTables s shows T) ++ hiddenTables v seen T p).Perm (allTables T) := by
  induction T with
  | nil =>
    intro p
    have : ∀ ms : List M, ms.flatMap (walkTables s shows .nil) = [] := by
      intro ms; induction ms with
      | nil => rfl
      | cons m ms ih => simp [walkTables, ih]
    rw [this]
    exact .refl _
  | node a cs sibs ih1 ih2 =>
    intro p
    cases a with
    | text t => exact ih2 p
    | elem n as =>
      simp only [walkTables, hiddenTables, allTables]
      have e1 := flatMap_append_perm (fun m => (if n = lit "TableControl" ∧ shows m as = true then [cs] else []) ++
        (s.rule m n as).ways.flatMap (walkTables s shows cs)) (walkTables s shows sibs) (ways p)
      have e2 := flatMap_append_perm (fun m => if n = lit "TableControl" ∧ shows m as = true then [cs] else [])
        (fun m => (s.rule m n as).ways.flatMap (walkTables s shows cs)) (ways p)
      have e3 : ((ways p).flatMap (fun m => if n = lit "TableControl" ∧ shows m as = true then [cs] else [])) ++
          (if n = lit "TableControl" ∧ ¬ seen p as = true then [cs] else []) = if n = lit "TableControl" then [cs] else [] := by
        by_cases hn : n = lit "TableControl"
        · simp only [hn, true_and, if_true]
          rw [flatMap_if_length (fun m => shows m as), hs p as]
          by_cases hp : seen p as <;> simp [hp]
        · simp [hn]
      have key : ∀ V : List (Forest XNode), ((ways p).flatMap (fun m => (s.rule m n as).ways.flatMap (walkTables s shows cs)) ++ V).Perm (allTables cs) →
          ((ways p).flatMap (fun m => (if n = lit "TableControl" ∧ shows m as = true then [cs] else []) ++
            (s.rule m n as).ways.flatMap (walkTables s shows cs) ++ walkTables s shows sibs m) ++
            ((if n = lit "TableControl" ∧ ¬ seen p as = true then [cs] else []) ++ V ++ hiddenTables v seen sibs p)).Perm
          ((if n = lit "TableControl" then [cs] else []) ++ allTables cs ++ allTables sibs) := by
        intro V e4
        rw [← e3]
        refine ((e1.trans (e2.append_right _)).append_right _).trans ?_
        refine .trans ?_ ((e4.append_left _).append (ih2 p))
        generalize (ways p).flatMap (fun m => if n = lit "TableControl" ∧ shows m as = true then [cs] else []) = A
        generalize (if n = lit "TableControl" ∧ ¬ seen p as = true then [cs] else []) = B
        generalize (ways p).flatMap (fun m => (s.rule m n as).ways.flatMap (walkTables s shows cs)) = C
        generalize (ways p).flatMap (walkTables s shows sibs) = D
        generalize hiddenTables v seen sibs p = E
        simp only [List.append_assoc]
        refine .append_left _ ?_
        have h1 : (C ++ (D ++ (B ++ (V ++ E)))).Perm (C ++ (B ++ (V ++ (D ++ E)))) := by
          refine .append_left _ ?_
          rw [← List.append_assoc B V E, ← List.append_assoc D, ← List.append_assoc B V, ← List.append_assoc (B ++ V)]
          exact List.perm_append_comm.append_right _
        refine h1.trans ?_
        rw [← List.append_assoc, ← List.append_assoc B C]
        exact List.perm_append_comm.append_right _
      apply key
      have hv := h.view p n as
      have hw : (ways p).flatMap (fun m => (s.rule m n as).ways.flatMap (walkTables s shows cs)) =
          ((ways p).flatMap fun m => actWays (s.rule m n as)).flatMap (walkTables s shows cs) := by
        rw [List.flatMap_assoc]
        simp only [act_ways]
      rw [hw]
      cases hq : v.view p n as with
      | hidden => rw [hq] at hv; rw [hv.2]; exact .refl _
      | words => rw [hq] at hv; rw [hv.2]; exact .refl _
      | place q => rw [hq] at hv; rw [hv.2]; exact ih1 q

/-- Where tables are seen in HTML. -/
theorem html_sees_tables (p : HtmlSpot) (as : List (PyStr × PyStr)) :
    ((htmlWays p).filter (htmlShowsTable · as)).length = if htmlSeesTable p as then 1 else 0 := by
  have hne : lit "0" ≠ lit "1" := by decide
  have hne2 : lit "GShapeObjectControl" ≠ lit "TableControl" := by decide
  cases p <;> simp only [htmlWays, htmlShowsTable, htmlSeesTable, List.filter_cons, List.filter_nil]
  case anything =>
    by_cases h1 : attrValue as "inline" = lit "1" <;> by_cases h0 : attrValue as "inline" = lit "0" <;> simp [h1, h0]
  case line =>
    by_cases h1 : attrValue as "inline" = lit "1"
    · simp [h1, hne, hne.symm]
    · by_cases h0 : attrValue as "inline" = lit "0" <;> simp [h1, h0, hne2]
      simp [hne]
  all_goals simp

/-- Where tables are seen in ODT. -/
theorem odt_sees_tables (p : OdtSpot) (as : List (PyStr × PyStr)) :
    ((odtWays p).filter (odtShowsTable · as)).length = if odtSeesTable p as then 1 else 0 := by cases p <;> rfl

theorem lists_tables (list : String) (T : Forest XNode) :
    ∃ rest, (forEach (lit list) (fun cs => walkTables htmlSheet htmlShowsTable cs .paragraphs) T ++ rest).Perm (allTables T) := by
  induction T with
  | nil => exact ⟨[], .refl _⟩
  | node a cs sibs _ ih =>
    obtain ⟨rest, ih⟩ := ih
    cases a with
    | text t => exact ⟨rest, ih⟩
    | elem n as =>
      simp only [forEach, allTables]
      generalize (if n = lit "TableControl" then [cs] else []) = P
      split
      · have := walkTables_all html_agrees htmlShowsTable _ html_sees_tables cs .list
        simp only [htmlWays, List.flatMap_cons, List.flatMap_nil, List.append_nil] at this
        have h2 := perm_parts (a := []) (x := P) (.refl _) this
        exact ⟨_, perm_parts h2 ih⟩
      · exact ⟨P ++ allTables cs ++ rest, perm_parts (a := []) (.refl _) ih⟩

theorem descend_tables (name list : String) (T : Forest XNode) :
    ∃ rest, (descend (lit name) (forEach (lit list) fun cs => walkTables htmlSheet htmlShowsTable cs .paragraphs) T ++ rest).Perm (tablesIn name T) := by
  induction T with
  | nil => exact ⟨[], .refl _⟩
  | node a cs sibs ih1 ih2 =>
    cases a with
    | text t => exact ih2
    | elem n as =>
      obtain ⟨r1, ih1⟩ := ih1
      obtain ⟨r2, ih2⟩ := ih2
      simp only [descend, tablesIn]
      split
      · obtain ⟨r0, h0⟩ := lists_tables list cs
        exact ⟨_, perm_parts (perm_parts h0 ih1) ih2⟩
      · exact ⟨_, perm_parts (perm_parts (a := []) (x := []) (.refl _) ih1) ih2⟩

theorem sections_tables {S M P : Type} {sh : Sheet M} {v : Places P} {ways : P → List M} (h : Agrees sh v ways) (shows : M → List (PyStr × PyStr) → Bool) (seen : P → List (PyStr × PyStr) → Bool)
    (hs : ∀ p as, ((ways p).filter (shows · as)).length = if seen p as then 1 else 0) (m : M) (p : P) (hp : ways p = [m])
    (H F : List (Forest XNode)) {R : S → Forest XNode → Prop} {Q : S → List (Forest XNode) → Prop} : ∀ (ss : List S) (T : Forest XNode), SectionNodes R ss T →
    (∀ s ∈ ss, ∀ cs, R s cs → ∀ t, t.Perm (allTables cs) → Q s t) →
    ∃ pages : List (List (Forest XNode) × List (Forest XNode)), List.Forall₂ (fun s pg => Q s (pg.1 ++ pg.2)) ss pages ∧
      forEach (lit "SectionDef") (fun cs => H ++ walkTables sh shows cs m ++ F) T = (pages.map fun pg => H ++ pg.1 ++ F).flatten ∧
      (pages.map (·.2)).flatten = hiddenTablesInSections v seen p T := by
  intro ss
  induction ss with
  | nil => intro T hT _; cases hT; exact ⟨[], .nil, rfl, rfl⟩
  | cons s ss ih =>
    intro T hT hQ
    cases T with
    | nil => exact hT.elim
    | node a cs sibs =>
      cases a with
      | text t => exact hT.elim
      | elem n as =>
        obtain ⟨rfl, h2, h3⟩ := hT
        obtain ⟨pages, i1, i2, i3⟩ := ih sibs h3 fun s hs => hQ s (by simp [hs])
        refine ⟨(walkTables sh shows cs m, hiddenTables v seen cs p) :: pages, .cons ?_ i1, ?_, ?_⟩
        · have := walkTables_all h shows seen hs cs p
          rw [hp] at this
          exact hQ s (by simp) cs h2 _ (by simpa using this)
        · simp only [forEach, if_true, i2, List.map_cons, List.flatten_cons]
        · simp only [hiddenTablesInSections, if_true, i3, List.map_cons, List.flatten_cons]


/-! ### The tables of models -/

theorem quiet_tables {K : Forest XNode} (h : QuietTree K) : allTables K = [] := by
  induction K with
  | nil => rfl
  | node a cs sibs ih1 ih2 =>
    cases a with
    | text t => exact ih2 h
    | elem n as =>
      simp only [QuietTree, everyElem, Bool.and_eq_true, decide_eq_true_eq] at h
      have hn : n ≠ lit "TableControl" := by rintro rfl; exact h.1.1 (by decide)
      simp only [allTables, if_neg hn, ih1 h.1.2, ih2 h.2, List.nil_append]

theorem allTables_append (A B : Forest XNode) : allTables (A.append B) = allTables A ++ allTables B := by
  induction A with
  | nil => rfl
  | node a cs sibs _ ih => cases a <;> simp [Forest.append, allTables, ih]

/-- The spans of a cell, as text. -/
def spanText (content : Fields) : PyStr × PyStr := (Spec.decimal (cellAt content).rowspan, Spec.decimal (cellAt content).colspan)

/-- A cell shows its spans. -/
def CellOk (env : XmlEnv) (m : ModelItem) : Prop :=
  m.model = "TableCell" → ∀ attrs kids, startModel env m = .ofList (.start (lit m.model) attrs :: kids) →
    (attrValue (attrs.map fun a => (a.1, noNul a.2)) "rowspan", attrValue (attrs.map fun a => (a.1, noNul a.2)) "colspan") = spanText m.attributes

theorem withId_cell (p : List (Ev ModelItem)) (m : ModelItem) (h : m.model = "TableCell") : withId p m = m := by
  unfold withId; rw [h]; rfl

/-- What the element of an item is called. -/
structure TableNamed (a : Item) (m : ModelItem) : Prop where
  control : m.model = "TableControl" ↔ isTable a
  body : m.model = "TableBody" ↔ a.isTableBody
  row : m.model = "TableRow" ↔ a = .tableRow
  cell : m.model = "TableCell" ↔ a.isTableCell

/-- What is known about an item. -/
def TableItem (env : XmlEnv) (ms : List (PModel Fields)) (ctx : DCtx) (a : Item) : Prop :=
  TableNamed a (concItem ms ctx a) ∧ CellOk env (concItem ms ctx a)

section
variable {env : XmlEnv} {ms : List (PModel Fields)} {ctx : DCtx}

theorem shown_cells (g : Forest Item) : ∀ T, Shown env (g.map (concItem ms ctx)) T → (∀ a, .start a ∈ eventsOf g → TableItem env ms ctx a) →
    rowCells T = (cellTags g.roots).map fun t => spanText (contentAt ms t) := by
  induction g with
  | nil => intro T hT _; rw [hT]; rfl
  | node a cs sibs _ ih =>
    intro T hT hi
    obtain ⟨p, attrs, kids, K, C, S, hst, hsil, hkids, hK, hC, hS, rfl⟩ := hT
    have i := ih S hS fun a ha => hi a (by simp [eventsOf, ha])
    obtain ⟨hn, hc⟩ := hi a (by simp [eventsOf])
    unfold rowCells at i ⊢
    simp only [childrenNamed, List.map_append, i, Forest.roots]
    by_cases h : (concItem ms ctx a).model = "TableCell"
    · rw [withId_cell _ _ h] at hst
      have h2 := hc h attrs kids hst
      have h3 := hn.cell.1 h
      cases a <;> simp [Item.isTableCell] at h3
      case tableCell t =>
      simp only [h, if_true, List.map_cons, List.map_nil, h2]
      simp only [cellTags, List.filterMap_cons, cellTag, List.map_cons]
      rfl
    · have h1 : lit (concItem ms ctx a).model ≠ lit "TableCell" := by rw [Ne, lit_eq]; exact h
      have h3 : ¬ a.isTableCell = true := fun e => h (hn.cell.2 e)
      simp only [if_neg h1, List.map_nil, List.nil_append]
      cases a <;> first | rfl | exact absurd rfl h3

theorem shown_rows (g : Forest Item) : ∀ T, Shown env (g.map (concItem ms ctx)) T → (∀ a, .start a ∈ eventsOf g → TableItem env ms ctx a) →
    (childrenNamed (lit "TableRow") T).map (fun r => rowCells r.2) = (rowsIn g).map fun r => r.map fun t => spanText (contentAt ms t) := by
  induction g with
  | nil => intro T hT _; rw [hT]; rfl
  | node a cs sibs _ ih =>
    intro T hT hi
    obtain ⟨p, attrs, kids, K, C, S, hst, hsil, hkids, hK, hC, hS, rfl⟩ := hT
    have i := ih S hS fun a ha => hi a (by simp [eventsOf, ha])
    obtain ⟨hn, -⟩ := hi a (by simp [eventsOf])
    simp only [childrenNamed, List.map_append, i]
    by_cases h : (concItem ms ctx a).model = "TableRow"
    · obtain rfl := hn.row.1 h
      have hcells : rowCells (K.append C) = rowCells C := by
        simp only [rowCells, childrenNamed_append, quiet_children (lit "TableCell") (by decide) (silent_tree hK hsil), List.nil_append]
      simp only [h, if_true, List.map_cons, List.map_nil, rowsIn, hcells,
        shown_cells cs C hC fun a ha => hi a (by simp [eventsOf, ha])]
      rfl
    · have h1 : lit (concItem ms ctx a).model ≠ lit "TableRow" := by rw [Ne, lit_eq]; exact h
      have h3 : a ≠ .tableRow := fun e => h (hn.row.2 e)
      simp only [if_neg h1, List.map_nil, List.nil_append]
      cases a <;> first | rfl | exact absurd rfl h3

theorem tableRows_append (A B : Forest XNode) : tableRows (A.append B) = tableRows A ++ tableRows B := by
  simp [tableRows, childrenNamed_append]

theorem shown_table (g : Forest Item) : ∀ T, Shown env (g.map (concItem ms ctx)) T → (∀ a, .start a ∈ eventsOf g → TableItem env ms ctx a) →
    tableRows T = (rowsOfRows g).map fun r => r.map fun t => spanText (contentAt ms t) := by
  induction g with
  | nil => intro T hT _; rw [hT]; rfl
  | node a cs sibs _ ih =>
    intro T hT hi
    obtain ⟨p, attrs, kids, K, C, S, hst, hsil, hkids, hK, hC, hS, rfl⟩ := hT
    have i := ih S hS fun a ha => hi a (by simp [eventsOf, ha])
    obtain ⟨hn, -⟩ := hi a (by simp [eventsOf])
    unfold tableRows at i ⊢
    simp only [childrenNamed, List.flatMap_append, List.map_append, i]
    by_cases h : (concItem ms ctx a).model = "TableBody"
    · have h3 := hn.body.1 h
      simp only [h, if_true, List.flatMap_cons, List.flatMap_nil, List.append_nil, childrenNamed_append,
        quiet_children (lit "TableRow") (by decide) (silent_tree hK hsil), List.nil_append,
        shown_rows cs C hC fun a ha => hi a (by simp [eventsOf, ha])]
      cases a <;> simp [Item.isTableBody] at h3
      simp [rowsOfRows]
    · have h1 : lit (concItem ms ctx a).model ≠ lit "TableBody" := by rw [Ne, lit_eq]; exact h
      simp only [if_neg h1, List.map_nil, List.nil_append, List.flatMap_nil]
      rw [rowsOfRows_other]
      exact Bool.eq_false_iff.2 fun e => h (hn.body.2 e)

theorem shown_tables (g : Forest Item) : ∀ T, Shown env (g.map (concItem ms ctx)) T → (∀ a, .start a ∈ eventsOf g → TableItem env ms ctx a) →
    (allTables T).map tableRows = (gather rowsOfRows g).map fun rows => rows.map fun r => r.map fun t => spanText (contentAt ms t) := by
  induction g with
  | nil => intro T hT _; rw [hT]; rfl
  | node a cs sibs ih1 ih2 =>
    intro T hT hi
    obtain ⟨p, attrs, kids, K, C, S, hst, hsil, hkids, hK, hC, hS, rfl⟩ := hT
    have i1 := ih1 C hC fun a ha => hi a (by simp [eventsOf, ha])
    have i2 := ih2 S hS fun a ha => hi a (by simp [eventsOf, ha])
    obtain ⟨hn, -⟩ := hi a (by simp [eventsOf])
    simp only [allTables, gather, List.map_append, allTables_append, quiet_tables (silent_tree hK hsil), List.nil_append, i1, i2]
    congr 2
    by_cases h : (concItem ms ctx a).model = "TableControl"
    · have hq : tableRows K = [] := by
        simp [tableRows, quiet_children (lit "TableBody") (by decide) (silent_tree hK hsil)]
      rw [if_pos (by rw [h]), if_pos (hn.control.1 h)]
      simp [tableRows_append, hq, shown_table cs C hC fun a ha => hi a (by simp [eventsOf, ha])]
    · have h1 : lit (concItem ms ctx a).model ≠ lit "TableControl" := by rw [Ne, lit_eq]; exact h
      rw [if_neg h1, if_neg fun e => h (hn.control.2 e)]
      rfl

end

/-! ### The tables of records -/

theorem cell_spans (env : XmlEnv) (ctx : DCtx) (fs gs : Fields) (h1 : FieldsOf ctx Decl.ListHeader [] fs) (h2 : FieldsOf ctx Decl.TableCell [] gs) :
    (attrValue ((hyphens ((showParts env ctx [Decl.ListHeader, Decl.TableCell] [fs, gs]).1 ++ [])).map fun a => (a.1, noNul a.2)) "rowspan",
      attrValue ((hyphens ((showParts env ctx [Decl.ListHeader, Decl.TableCell] [fs, gs]).1 ++ [])).map fun a => (a.1, noNul a.2)) "colspan") =
    spanText (fs ++ gs) := by
  simp only [Decl.ListHeader, Decl.m, fieldsOf_m] at h1
  obtain ⟨v1, _, rfl, i1, v2, _, rfl, i2, v3, _, rfl, i3, i4⟩ := h1
  rw [FieldsOf.eq_def] at i4
  simp only at i4
  subst i4
  simp only [Decl.TableCell, Decl.m, fieldsOf_m] at h2
  obtain ⟨w1, _, rfl, j1, w2, _, rfl, j2, w3, _, rfl, j3, w4, _, rfl, j4, w5, _, rfl, j5, w6, _, rfl, j6, w7, _, rfl, j7, w8, _, rfl, j8, w9, _, rfl, j9, j10⟩ := h2
  obtain ⟨a1, rfl, -⟩ := int_of_shaped i1
  obtain ⟨a2, rfl, -⟩ := int_of_shaped i2
  obtain ⟨n, rfl⟩ : ∃ n, v3 = .leaf (.flags Decl.ListHeaderFlags n) := by
    cases v3 with
    | leaf x => cases x <;> simp [Shaped] at i3; exact ⟨_, by rw [i3.1]⟩
    | _ => simp [Shaped] at i3
  obtain ⟨n1, rfl, -⟩ := int_of_shaped j1
  obtain ⟨n2, rfl, -⟩ := int_of_shaped j2
  obtain ⟨n3, rfl, r3⟩ := int_of_shaped j3
  obtain ⟨n4, rfl, r4⟩ := int_of_shaped j4
  obtain ⟨k3, rfl⟩ : ∃ k : Nat, n3 = k := ⟨n3.toNat, (Int.toNat_of_nonneg r3.1).symm⟩
  obtain ⟨k4, rfl⟩ : ∃ k : Nat, n4 = k := ⟨n4.toNat, (Int.toNat_of_nonneg r4.1).symm⟩
  have e : ∀ l : Fields, spanText ([("paragraphs", .leaf (.int a1)), ("unknown1", .leaf (.int a2)), ("listflags", .leaf (.flags Decl.ListHeaderFlags n))] ++
      ("col", .leaf (.int n1)) :: ("row", .leaf (.int n2)) :: ("colspan", .leaf (.int k3)) :: ("rowspan", .leaf (.int k4)) :: l) =
      (Spec.decimal k4, Spec.decimal k3) := by
    intro l
    simp [spanText, cellAt, natField, fieldOf]
  rw [e]
  have hd : ∀ k : Nat, noNul (Spec.decimal k) = Spec.decimal k := fun k => by rw [decimal_nat, noNul_natStr]
  rw [← hd k3, ← hd k4]
  simp only [showParts, showMembers, if_true, Decl.ListHeader, Decl.TableCell, Decl.m]
  rfl

theorem record_cell (env : XmlEnv) (ver : Version) (rd : ModelReader Fields) (hrd : ReadsDecls ver rd)
    (rs : Gen Record) (i : Nat) (m : PModel Fields) (hm : (parseModels rd rs).out[i]? = some m) :
    CellOk env ⟨m.type, m.content, ⟨some ver, none⟩⟩ := by
  intro ht attrs kids hs
  replace ht : m.type = "TableCell" := ht
  obtain ⟨parts, plain, h1, h2, h3, -⟩ := Props.C71_element_of_record env ver rd hrd rs i m hm (by rw [ht]; decide) (.inl (by rw [ht]; decide)) []
    ⟨by simp, by simp, by simp, by simp⟩
  have hch : classChain m.type = [Decl.ListHeader, Decl.TableCell] := by rw [ht]; rfl
  rw [hch] at h1 h3
  obtain ⟨fs, gs, rfl, hfs, hgs⟩ : ∃ fs gs, parts = [fs, gs] ∧ FieldsOf ⟨some ver, none⟩ Decl.ListHeader [] fs ∧ FieldsOf ⟨some ver, none⟩ Decl.TableCell [] gs := by
    match parts, h1 with
    | [fs, gs], h1 => exact ⟨fs, gs, rfl, h1.1, h1.2.1⟩
    | [], h1 => simp [PartsOf] at h1
    | [_], h1 => simp [PartsOf] at h1
    | _ :: _ :: _ :: _, h1 => simp [PartsOf] at h1
  obtain ⟨hcontent, rfl⟩ : m.content = fs ++ gs ∧ plain = [] := by
    rcases h2 with ⟨h2, h4⟩ | ⟨h2, -⟩
    · exact ⟨by rw [h2]; simp, h4⟩
    · rw [ht] at h2; exact absurd h2 (by decide)
  rw [List.append_nil] at h3
  have := ofList_injective (hs.symm.trans h3)
  simp only [List.cons.injEq, XEv.start.injEq, true_and] at this
  obtain ⟨rfl, -⟩ := this
  rw [hcontent]
  exact cell_spans env _ fs gs hfs hgs

theorem record_named (i : Nat) (m : PModel Fields) (ctx : DCtx) (hm : m.type ∈ modelNames) :
    TableNamed (itemOf i m) ⟨m.type, m.content, ctx⟩ := by
  have h2 : m.type ≠ "TableRow" := by
    intro h
    rw [h] at hm
    have : "TableRow" ∉ modelNames := by decide +kernel
    exact this hm
  refine itemOf_cases i m (fun a => TableNamed a ⟨m.type, m.content, ctx⟩) ?_ ?_ ?_ ?_ ?_ ?_ ?_ ?_ ?_ ?_ ?_ ?_
  on_goal 12 =>
    intro h
    have c1 := h "TableControl" (by simp)
    have c2 := h "TableBody" (by simp)
    have c3 := h "TableCell" (by simp)
    refine ⟨fun _ => ?_, fun _ => ?_, fun _ => ?_, fun _ => ?_⟩
    all_goals exact ⟨by simp [c1, isTable], by simp [c2, Item.isTableBody], by simp [h2], by simp [c3, Item.isTableCell]⟩
  all_goals
    intro e
    exact ⟨by simp [e, isTable], by simp [e, Item.isTableBody], by simp [e], by simp [e, Item.isTableCell]⟩

theorem derived_table (env : XmlEnv) (ver : Version) (rd : ModelReader Fields) (hrd : ReadsDecls ver rd) (rs : Gen Record)
    (a : Item) (h : Derived ((parseModels rd rs).out.mapIdx itemOf) a) :
    TableItem env (parseModels rd rs).out ⟨some ver, none⟩ a := by
  have hrec : a ∈ (parseModels rd rs).out.mapIdx itemOf → TableItem env (parseModels rd rs).out ⟨some ver, none⟩ a := by
    intro ha
    obtain ⟨i, m, hm, rfl⟩ := mem_items ha
    unfold TableItem
    rw [concItem_itemOf hm]
    exact ⟨record_named i m _ (record_type ver rd hrd rs i m hm), record_cell env ver rd hrd rs i m hm⟩
  have hne : ∀ s : String, (concItem (parseModels rd rs).out ⟨some ver, none⟩ a).model = s → s ≠ "TableCell" → s ≠ "TableRow" → s ≠ "TableBody" → s ≠ "TableControl" →
      isTable a = false → a.isTableBody = false → a ≠ .tableRow → a.isTableCell = false → TableItem env (parseModels rd rs).out ⟨some ver, none⟩ a := by
    intro s hs n1 n2 n3 n4 f1 f2 f3 f4
    refine ⟨⟨by simp [hs, n4, f1], by simp [hs, n3, f2], by simp [hs, n2, f3], by simp [hs, n1, f4]⟩, ?_⟩
    intro e
    exact absurd (hs.symm.trans e) n1
  cases a with
  | sectionDef o t =>
    obtain ⟨o', h'⟩ := h
    obtain ⟨i, m, hm, e⟩ := mem_items h'
    obtain ⟨h1, -, rfl⟩ := itemOf_sectionDef e.symm
    cases o <;> exact hne "SectionDef" (by simp [concItem, recordItem, contentAt, hm, h1]) (by decide) (by decide) (by decide) (by decide) rfl rfl (by simp) rfl
  | tableBody o t =>
    obtain ⟨o', h'⟩ := h
    obtain ⟨i, m, hm, e⟩ := mem_items h'
    obtain ⟨h1, -, rfl⟩ := itemOf_tableBody e.symm
    have hb : (concItem (parseModels rd rs).out ⟨some ver, none⟩ (.tableBody o t)).model = "TableBody" := by
      cases o <;> simp [concItem, recordItem, contentAt, hm, h1]
    refine ⟨⟨by simp [hb, isTable], by simp [hb, Item.isTableBody], by simp [hb], by simp [hb, Item.isTableCell]⟩, ?_⟩
    intro e
    rw [hb] at e
    exact absurd e (by decide)
  | lineSeg l =>
    obtain ⟨o, k⟩ := l
    cases o <;> exact hne "LineSeg" (by simp [concItem]) (by decide) (by decide) (by decide) (by decide) rfl rfl (by simp) rfl
  | text s sh l => exact hne "Text" (by simp [concItem]) (by decide) (by decide) (by decide) (by decide) rfl rfl (by simp) rfl
  | controlChar code kind sh => exact hne "ControlChar" (by simp [concItem]) (by decide) (by decide) (by decide) (by decide) rfl rfl (by simp) rfl
  | columnSet => exact hne "ColumnSet" (by simp [concItem]) (by decide) (by decide) (by decide) (by decide) rfl rfl (by simp) rfl
  | tableRow =>
    exact ⟨⟨by simp [concItem, isTable], by simp [concItem, Item.isTableBody], by simp [concItem], by simp [concItem, Item.isTableCell]⟩, by simp [CellOk, concItem]⟩
  | paraText c t => exact absurd h (by simp [Derived])
  | paraCharShape c t => exact absurd h (by simp [Derived])
  | paraLineSeg c t => exact absurd h (by simp [Derived])
  | paraRangeTag t => exact absurd h (by simp [Derived])
  | paragraph n t => exact hrec h
  | tableCell t => exact hrec h
  | listHeader c t => exact hrec h
  | field c t => exact hrec h
  | tableControl t => exact hrec h
  | gshapeControl t => exact hrec h
  | control c t => exact hrec h
  | shapeComponent t => exact hrec h
  | other c t => exact hrec h

/-! ### From records to items -/

theorem roots_map' {α β : Type} (F : α → β) (f : Forest α) : (f.map F).roots = f.roots.map F := by
  induction f with
  | nil => rfl
  | node a cs sibs _ ih => simp [Forest.map, Forest.roots, ih]

theorem widths_eq (content : Fields) : rowWidths content = rowcolsOf content := by
  have h : ∀ name, content.lookup name = fieldOf name content := by
    intro name
    induction content with
    | nil => rfl
    | cons p content ih =>
      obtain ⟨k, v⟩ := p
      by_cases e : k = name
      · subst e; simp [fieldOf, List.lookup]
      · have e' : (name == k) = false := by simpa using fun h => e h.symm
        simp only [List.lookup, e', ih]
        simp [fieldOf, e]
  unfold rowWidths rowcolsOf
  rw [h]
  cases fieldOf "rowcols" content with
  | none => rfl
  | some v => cases v <;> rfl

theorem pieces_map {α β : Type} (F : α → β) (ws : List Nat) : ∀ l : List α, (pieces ws l).map (fun r => r.map F) = pieces ws (l.map F) := by
  induction ws with
  | nil => intro l; rfl
  | cons w ws ih => intro l; simp [pieces, ih, List.map_take, List.map_drop]

theorem itemOf_listHeader (i : Nat) (m : PModel Fields) (g0 : m.type ≠ "Paragraph") : (itemOf i m).isListHeader = isSubclass m.type "ListHeader" := by
  have hsub : ∀ s ∈ ["ParaText", "ParaCharShape", "ParaLineSeg", "ParaRangeTag", "SectionDef", "TableBody", "TableControl",
      "GShapeObjectControl", "ShapeComponent"], isSubclass s "ListHeader" = false := by decide +kernel
  have hcell : isSubclass "TableCell" "ListHeader" = true := by decide +kernel
  unfold itemOf
  dsimp only
  rw [if_neg g0]
  by_cases g1 : m.type = "ParaText"
  · rw [if_pos g1, g1, hsub _ (by simp)]; rfl
  rw [if_neg g1]
  by_cases g2 : m.type = "ParaCharShape"
  · rw [if_pos g2, g2, hsub _ (by simp)]; rfl
  rw [if_neg g2]
  by_cases g3 : m.type = "ParaLineSeg"
  · rw [if_pos g3, g3, hsub _ (by simp)]; rfl
  rw [if_neg g3]
  by_cases g4 : m.type = "ParaRangeTag"
  · rw [if_pos g4, g4, hsub _ (by simp)]; rfl
  rw [if_neg g4]
  by_cases g5 : m.type = "SectionDef"
  · rw [if_pos g5, g5, hsub _ (by simp)]; rfl
  rw [if_neg g5]
  by_cases g6 : m.type = "TableBody"
  · rw [if_pos g6, g6, hsub _ (by simp)]; rfl
  rw [if_neg g6]
  by_cases g7 : m.type = "TableCell"
  · rw [if_pos g7, g7, hcell]; rfl
  rw [if_neg g7]
  by_cases g8 : m.type = "TableControl"
  · rw [if_pos g8, g8, hsub _ (by simp)]; rfl
  rw [if_neg g8]
  by_cases g9 : m.type = "GShapeObjectControl"
  · rw [if_pos g9, g9, hsub _ (by simp)]; rfl
  rw [if_neg g9]
  by_cases g10 : m.type = "ShapeComponent"
  · rw [if_pos g10, g10, hsub _ (by simp)]; rfl
  rw [if_neg g10]
  by_cases g11 : isSubclass m.type "ListHeader" = true
  · rw [if_pos g11, g11]; rfl
  rw [if_neg g11, Bool.eq_false_iff.2 g11]
  split
  · rfl
  split <;> rfl

/-- The item is a cell or a body. -/
theorem itemOf_table (i : Nat) (m : PModel Fields) :
    cellTag (itemOf i m) = (if m.type = "TableCell" then some i else none) ∧
    isTable (itemOf i m) = decide (m.type = "TableControl") ∧
    (itemOf i m).isTableBody = decide (m.type = "TableBody") ∧
    (m.type = "TableBody" → itemOf i m = .tableBody (some (rowcolsOf m.content)) i) ∧
    (itemOf i m).isParagraph = decide (m.type = "Paragraph") := by
  refine itemOf_cases i m (fun a => cellTag a = (if m.type = "TableCell" then some i else none) ∧
    isTable a = decide (m.type = "TableControl") ∧
    a.isTableBody = decide (m.type = "TableBody") ∧
    (m.type = "TableBody" → a = .tableBody (some (rowcolsOf m.content)) i) ∧
    a.isParagraph = decide (m.type = "Paragraph")) ?_ ?_ ?_ ?_ ?_ ?_ ?_ ?_ ?_ ?_ ?_ ?_
  on_goal 12 =>
    intro h
    have c1 := h "TableControl" (by simp)
    have c2 := h "TableBody" (by simp)
    have c3 := h "TableCell" (by simp)
    have c4 := h "Paragraph" (by simp)
    refine ⟨fun e => ?_, fun e => ?_, fun e => ?_, fun e => ?_⟩
    all_goals exact ⟨by simp [c3, cellTag], by simp [c1, isTable], by simp [c2, Item.isTableBody], fun e => absurd e c2, by simp [c4, Item.isParagraph]⟩
  all_goals
    intro e
    refine ⟨by simp [e, cellTag], by simp [e, isTable], by simp [e, Item.isTableBody], fun e' => ?_, by simp [e, Item.isParagraph]⟩
    first | rfl | (rw [e] at e'; exact absurd e' (by decide))

theorem tidy_items (l : List (Nat × PModel Fields)) : ∀ b, TidyList b (l.map (·.2)) → Tidy b (l.map fun p => itemOf p.1 p.2) := by
  induction l with
  | nil => intro b _; trivial
  | cons p l ih =>
    intro b h
    obtain ⟨-, -, -, -, h5⟩ := itemOf_table p.1 p.2
    have h6 := itemOf_listHeader p.1 p.2
    simp only [List.map_cons, TidyList] at h ⊢
    by_cases ht : p.2.type = "Paragraph"
    · rw [if_pos ht] at h
      simp only [ht, decide_true] at h5
      generalize itemOf p.1 p.2 = a at *
      cases a <;> simp [Item.isParagraph] at h5
      exact ⟨h.1, ih _ h.2⟩
    · rw [if_neg ht] at h
      have h6 := h6 ht
      simp only [ht, decide_false] at h5
      have h7 := ih _ h
      rw [← h6] at h7
      generalize itemOf p.1 p.2 = a at *
      cases a <;> simp [Item.isParagraph] at h5 <;> exact h7

theorem tidyTables_items (f : Forest (Nat × PModel Fields)) (h : TidyTables f) :
    ∀ l ∈ gather Forest.roots (f.map fun p => itemOf p.1 p.2), Tidy false l := by
  induction f with
  | nil => intro l hl; cases hl
  | node a cs sibs ih1 ih2 =>
    obtain ⟨h1, h2, h3⟩ := h
    intro l hl
    simp only [Forest.map, gather, List.mem_append, (itemOf_table a.1 a.2).2.1, decide_eq_true_eq] at hl
    rcases hl with (hl | hl) | hl
    · split at hl
      · rename_i ht
        rw [List.mem_singleton] at hl
        subst hl
        rw [roots_map']
        exact tidy_items _ _ (h1 ht)
      · cases hl
    · exact ih1 h2 l hl
    · exact ih2 h3 l hl

theorem rows_items (ms : List (PModel Fields)) (l : List (Nat × PModel Fields)) (h : ∀ p ∈ l, ms[p.1]? = some p.2) :
    (cellTags (l.map fun p => itemOf p.1 p.2)).map (fun t => cellAt (contentAt ms t)) =
      (((l.map (·.2)).filter fun c => c.type = "TableCell").map fun c => cellAt c.content) ∧
    (rowsOfRecords (l.map fun p => itemOf p.1 p.2)).map (fun r => r.map fun t => cellAt (contentAt ms t)) = recordRows (l.map (·.2)) := by
  induction l with
  | nil => exact ⟨rfl, rfl⟩
  | cons p l ih =>
    obtain ⟨i1, i2⟩ := ih fun p hp => h p (by simp [hp])
    obtain ⟨h1, -, h3, h4, -⟩ := itemOf_table p.1 p.2
    have hp := h p (by simp)
    constructor
    · simp only [cellTags] at i1
      simp only [List.map_cons, cellTags, List.filterMap_cons, h1]
      by_cases ht : p.2.type = "TableCell"
      · rw [if_pos ht, List.filter_cons_of_pos (by simpa using ht), List.map_cons, List.map_cons, ← i1]
        simp only [contentAt, hp, Option.map_some, Option.getD_some]
      · rw [if_neg ht, List.filter_cons_of_neg (by simpa using ht), ← i1]
    · simp only [List.map_cons, recordRows]
      by_cases ht : p.2.type = "TableBody"
      · rw [h4 ht]
        simp only [rowsOfRecords, ht, if_true, List.map_append, i2, pieces_map, i1, widths_eq]
      · rw [rowsOfRecords_other _ _ (by rw [h3]; simp [ht]), if_neg ht, i2, List.nil_append]

theorem tables_items (ms : List (PModel Fields)) (f : Forest (Nat × PModel Fields)) (h : ∀ p, .start p ∈ eventsOf f → ms[p.1]? = some p.2) :
    ((gather Forest.roots (f.map fun p => itemOf p.1 p.2)).map rowsOfRecords).map (fun rows => rows.map fun r => r.map fun t => cellAt (contentAt ms t)) =
      recordTables f := by
  induction f with
  | nil => rfl
  | node a cs sibs ih1 ih2 =>
    have i1 := ih1 fun p hp => h p (by simp [eventsOf, hp])
    have i2 := ih2 fun p hp => h p (by simp [eventsOf, hp])
    simp only [Forest.map, gather, List.map_append, i1, i2, recordTables, (itemOf_table a.1 a.2).2.1, decide_eq_true_eq]
    congr 2
    split
    · have hr : ∀ (g : Forest (Nat × PModel Fields)) p, p ∈ g.roots → Ev.start p ∈ eventsOf g := by
        intro g
        induction g with
        | nil => intro p hp; cases hp
        | node b ds tibs _ ih =>
          intro p hp
          simp only [Forest.roots, List.mem_cons] at hp
          rcases hp with rfl | hp
          · simp [eventsOf]
          · simp [eventsOf, ih p hp]
      simp only [List.map_cons, List.map_nil, roots_map']
      rw [(rows_items ms cs.roots fun p hp => h p (by simp [eventsOf, hr cs p hp])).2]
    · rfl

/-- The tables of the element of a section. -/
theorem sectionOf_tables {env : XmlEnv} {rd : ModelReader Fields} {ver : Version} {s : Nat × Bytes} {cs : Forest XNode} (hrd : ReadsDecls ver rd)
    (h : SectionOf env rd ver s cs) : ∃ f, StreamTree rd s.2 f ∧
      (TidyTables f → ((allTables cs).map tableRows).Perm ((recordTables f).map spanTexts)) := by
  obtain ⟨f, t, g, hf, -, hb, hp, hx, hk⟩ := h
  have hparse := tree_parse hf
  refine ⟨f, hf, fun ht => ?_⟩
  obtain ⟨K, C, rfl, hq, hC⟩ := kidsOf_shown hk (hx _ (by simp [eventsOf])).2.1 (by
    intro a ha
    obtain ⟨x, h1, rfl⟩ := start_map _ _ _ ha
    exact ⟨(hx x (by simp [eventsOf, h1])).1, (hx x (by simp [eventsOf, h1])).2.1⟩)
  rw [hparse] at hC
  rw [allTables_append, quiet_tables hq, List.nil_append, shown_tables g C hC (by
    intro x hx'
    exact derived_table env ver rd hrd (readRecords s.2) x (by rw [← hparse]; exact (hx x (by simp [eventsOf, hx'])).2.2.2))]
  have h1 := pipeline_tables (some s.1) _ hp (tidyTables_items f ht) _ g hb
  have h2 := h1.map fun rows => rows.map fun r => r.map fun t => spanText (contentAt (parseModels rd (readRecords s.2)).out t)
  refine h2.trans ?_
  rw [← tables_items (parseModels rd (readRecords s.2)).out f fun p hp => by rw [← hparse]; exact tree_model hf p hp]
  simp only [List.map_map]
  apply List.Perm.of_eq
  apply List.map_congr_left
  intro l _
  simp [spanTexts, spanText, List.map_map, Function.comp_def]

end Hwp
