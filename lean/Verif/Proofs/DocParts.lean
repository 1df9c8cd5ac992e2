/-
Events of the parts of a document and of a whole document.
-/
import Verif.Proofs.DocSummary
import Verif.Props.Pipeline
set_option linter.unusedSimpArgs false
set_option linter.unusedVariables false
namespace Hwp
open Spec

/-! ### DocInfo -/

theorem storage_get (n : Nat) : Decl.BinDataFlags.get n "storage" = .ok (n % 16) := by
  have : Decl.BinDataFlags.get n "storage" = .ok (bitGroup 0 3 n) := rfl
  rw [this]
  unfold bitGroup
  rw [Nat.shiftRight_zero]
  exact congrArg Except.ok (Nat.and_two_pow_sub_one_eq_mod n 4)

theorem withData_model (bd : List (PyStr × Bytes)) (m : ModelItem) : (withData bd m).model = m.model := by
  unfold withData
  split
  · split <;> rfl
  · rfl

theorem withData_other (bd : List (PyStr × Bytes)) (m : ModelItem) (h : m.model ≠ "BinData") : withData bd m = m := by
  unfold withData
  split
  · rw [if_neg (fun c => h c.1)]
  · rfl

theorem withData_kept (bd : List (PyStr × Bytes)) (model : String) (f : FlagsDecl) (n : Nat) (v : Value PVal) (ctx : DCtx) (h : n % 16 ≠ 1) :
    withData bd ⟨model, [("flags", .leaf (.flags f n)), ("bindata", v)], ctx⟩ =
      ⟨model, [("flags", .leaf (.flags f n)), ("bindata", v)], ctx⟩ := by
  unfold withData
  dsimp only
  split
  · rename_i h2
    simp only [List.cons.injEq, Prod.mk.injEq, Value.leaf.injEq, PVal.flags.injEq] at h2
    rw [if_neg (by rintro ⟨-, h1⟩; rw [← h2.1.2.2] at h1; exact h h1)]
  · rfl

section
variable (env : XmlEnv) (ver : Version) (rd : ModelReader Fields) (hrd : ReadsDecls ver rd) (rs : Gen Record)
include hrd

theorem embed_item (bd : List (PyStr × Bytes)) (i : Nat) (m : PModel Fields) (hm : (parseModels rd rs).out[i]? = some m)
    (ht : m.type ∉ paragraphParts) (hb : m.type = "BinData" → "bindata" ∈ m.content.map (·.1))
    (hd : m.type = "BinData" → DataThere bd m.content) :
    embedItem bd ⟨m.type, m.content, streamCtx ver⟩ = .ok (withData bd ⟨m.type, m.content, streamCtx ver⟩) ∧
    IdShows env (withData bd ⟨m.type, m.content, streamCtx ver⟩) := by
  have hb' : m.type ≠ "BinData" ∨ "bindata" ∈ m.content.map (·.1) := by
    by_cases h : m.type = "BinData"
    · exact Or.inr (hb h)
    · exact Or.inl h
  have hgood := record_good env ver rd hrd rs i m hm ht hb'
  by_cases htype : m.type = "BinData"
  · obtain ⟨parts, plain, h1, h2, -⟩ := Props.C71_element_of_record env ver rd hrd rs i m hm ht hb' [] ⟨by simp, by simp, by simp, by simp⟩
    have hch : classChain "BinData" = [Decl.BinData] := rfl
    rw [htype, hch] at h1
    obtain ⟨fs, rfl, hfs⟩ : ∃ fs, parts = [fs] ∧ FieldsOf ⟨some ver, none⟩ Decl.BinData [] fs := by
      cases parts with
      | nil => simp [PartsOf] at h1
      | cons fs parts =>
        cases parts with
        | nil => exact ⟨fs, rfl, by simpa [PartsOf] using h1⟩
        | cons => simp [PartsOf] at h1
    have hcontent : m.content = fs := by
      rcases h2 with ⟨h2, -⟩ | ⟨h2, -⟩
      · rw [h2]; simp
      · rw [htype] at h2; exact absurd h2 (by decide)
    obtain ⟨n, v, hv, hst⟩ := embedding_fields _ _ hfs
    rw [storage_get] at hst
    rw [htype, hcontent, hv] at hgood ⊢
    have hd' := hd htype
    rw [hcontent, hv] at hd'
    by_cases hn : n % 16 = 1
    · obtain ⟨id, ext, rfl, hid⟩ := hst (by rw [hn])
      have hsome := hd' _ _ _ _ rfl hn
      obtain ⟨data, hdata⟩ := Option.isSome_iff_exists.1 hsome
      have hid' : (0 : Int) ≤ id := hid.1
      have hname : lit "BIN" ++ hexPadInt 4 id ++ lit "." ++ ext = binaryName id ext := by
        unfold binaryName
        obtain ⟨k, rfl⟩ : ∃ k : Nat, id = k := ⟨id.toNat, by omega⟩
        rw [hexPadInt_nat]; rfl
      have hw : withData bd ⟨"BinData", [("flags", .leaf (.flags Decl.BinDataFlags n)), ("bindata", .struct [("storage_id", .leaf (.int id)),
          ("ext", .leaf (.str ext))])], streamCtx ver⟩ = ⟨"BinData", [("flags", .leaf (.flags Decl.BinDataFlags n)),
          ("bindata", .struct [("storage_id", .leaf (.int id)), ("ext", .leaf (.str ext)), ("<text>", .leaf (.str (chars (embedText data)))),
            ("inline", .leaf (.str (lit "true")))])], streamCtx ver⟩ := by
        unfold withData
        dsimp only
        rw [if_pos ⟨rfl, hn⟩, hdata]; rfl
      rw [hw]
      refine ⟨?_, good_of_shows _ _ rfl (embedded_shown env _ n id ext _ (by rw [storage_get, hn]) hid).2⟩
      unfold embedItem
      rw [if_pos rfl]
      simp only [List.lookup_cons, beq_self_eq_true, show ("bindata" == "flags") = false by decide, show ("ext" == "storage_id") = false by decide,
        storage_get, hn, if_true, hname, hdata]
      rfl
    · rw [withData_kept _ _ _ _ _ _ hn]
      refine ⟨?_, hgood⟩
      unfold embedItem
      rw [if_pos rfl]
      simp only [List.lookup_cons, beq_self_eq_true, storage_get, hn, if_false]
  · rw [withData_other _ _ htype]
    refine ⟨?_, hgood⟩
    unfold embedItem
    rw [if_neg htype]
end

theorem embedGo_ok (bd : List (PyStr × Bytes)) (F : ModelItem → ModelItem) : ∀ (es : List (Ev ModelItem)),
    (∀ m, .start m ∈ es → embedItem bd m = .ok (F m)) → embedGo bd none es = .ofList (atStarts F es) := by
  intro es
  induction es with
  | nil => intro _; rfl
  | cons e es ih =>
    intro h
    have ih := ih (fun m hm => h m (by simp [hm]))
    cases e with
    | start m => unfold embedGo; rw [h m (by simp), ih]; rfl
    | stop m => unfold embedGo; rw [ih]; rfl

theorem start_of_mem {α} (f : Forest α) (e : Ev α) (h : e ∈ eventsOf f) : .start e.item ∈ eventsOf f := by
  induction f with
  | nil => cases h
  | node a cs sibs ih1 ih2 =>
    simp only [eventsOf, List.mem_cons, List.mem_append] at h ⊢
    rcases h with rfl | h | rfl | h
    · exact Or.inl rfl
    · exact Or.inr (Or.inl (ih1 h))
    · exact Or.inl rfl
    · exact Or.inr (Or.inr (Or.inr (ih2 h)))

theorem start_depths {α} (f : Forest α) (a : α) (h : .start a ∈ eventsOf f) : ∀ d, ∃ d', (d', a) ∈ depthsOf d f := by
  induction f with
  | nil => cases h
  | node b cs sibs ih1 ih2 =>
    intro d
    simp only [eventsOf, List.mem_cons, List.mem_append, Ev.start.injEq, reduceCtorEq, false_or] at h
    simp only [depthsOf, List.mem_cons, List.mem_append, Prod.mk.injEq]
    rcases h with rfl | h | h
    · exact ⟨d, Or.inl ⟨rfl, rfl⟩⟩
    · obtain ⟨d', h'⟩ := ih1 h (d + 1)
      exact ⟨d', Or.inr (Or.inl h')⟩
    · obtain ⟨d', h'⟩ := ih2 h d
      exact ⟨d', Or.inr (Or.inr h')⟩

theorem start_map {α β} (F : α → β) (f : Forest α) (b : β) (h : .start b ∈ eventsOf (f.map F)) :
    ∃ a, .start a ∈ eventsOf f ∧ b = F a := by
  rw [← map_eventsOf F (fun e => match e with | .start a => .start (F a) | .stop a => .stop (F a)) (fun _ => rfl) (fun _ => rfl)] at h
  obtain ⟨e, h1, h2⟩ := List.mem_map.1 h
  cases e with
  | start a => cases h2; exact ⟨a, h1, rfl⟩
  | stop a => cases h2

theorem tree_model {rd : ModelReader Fields} {s : Bytes} {f : Forest (Nat × PModel Fields)} (h : StreamTree rd s f)
    (p : Nat × PModel Fields) (hp : .start p ∈ eventsOf f) : (streamModels rd s).out[p.1]? = some p.2 := by
  obtain ⟨d, hd⟩ := start_depths f p hp 0
  rw [streamTree_depths h] at hd
  obtain ⟨i, hi, e⟩ := List.mem_mapIdx.1 hd
  cases e
  exact List.getElem?_eq_getElem hi

theorem tree_parse {rd : ModelReader Fields} {s : Bytes} {f : Forest (Nat × PModel Fields)} (h : StreamTree rd s f) :
    streamModels rd s = parseModels rd (readRecords s) := Props.C65_models_of_stream rd s h.records h.first

theorem atStarts_mem {α} (F : α → α) (es : List (Ev α)) (b : α) (h : .start b ∈ atStarts F es) : ∃ a, .start a ∈ es ∧ b = F a := by
  induction es with
  | nil => cases h
  | cons e es ih =>
    cases e with
    | start a =>
      simp only [atStarts, List.mem_cons, Ev.start.injEq] at h
      rcases h with rfl | h
      · exact ⟨a, by simp, rfl⟩
      · obtain ⟨a, h1, h2⟩ := ih h
        exact ⟨a, by simp [h1], h2⟩
    | stop a =>
      simp only [atStarts, List.mem_cons, reduceCtorEq, false_or] at h
      obtain ⟨a, h1, h2⟩ := ih h
      exact ⟨a, by simp [h1], h2⟩

theorem docinfo_part (env : XmlEnv) (rd : ModelReader Fields) (d : DocSource) (hrd : ReadsDecls d.version rd)
    (h : ProperDocument rd d) (f : Forest (Nat × PModel Fields)) (hf : StreamTree rd d.docinfo f) :
    docinfoEvents rd d = .ofList (element ⟨"DocInfo", [], noCtx⟩ (docinfoEvs d f)) ∧
    (∀ a, .start a ∈ docinfoEvs d f → IdShows env a) ∧
    (docinfoEvs d f).map evName = eventsOf (f.map (fun p => p.2.type)) := by
  have hev := modelEvents_tree (⟨"", [], noCtx⟩ : ModelItem) (docItem d.version) hf
  have hitem : ∀ m, .start m ∈ eventsOf (f.map fun p => docItem d.version p.1 p.2) →
      ∃ (i : Nat) (p : PModel Fields), (parseModels rd (readRecords d.docinfo)).out[i]? = some p ∧ p ∈ (streamModels rd d.docinfo).out ∧
        m = ⟨p.type, p.content, streamCtx d.version⟩ := by
    intro m hm
    obtain ⟨p, h1, h2⟩ := start_map _ _ _ hm
    have h3 := tree_model hf p h1
    exact ⟨p.1, p.2, by rw [← tree_parse hf]; exact h3, List.mem_of_getElem? h3, h2⟩
  have hnames : (eventsOf (f.map fun p => docItem d.version p.1 p.2)).map evName = eventsOf (f.map (fun p => p.2.type)) := by
    rw [names_eventsOf]
    congr 1
    clear hf hev hitem
    induction f with
    | nil => rfl
    | node a cs sibs ih1 ih2 => simp only [Forest.map, ih1, ih2]; rfl
  unfold docinfoEvents docinfoEvs
  rw [hev]
  cases hbd : d.bindata with
  | none =>
    refine ⟨rfl, ?_, hnames⟩
    intro a ha
    obtain ⟨i, p, h1, h2, rfl⟩ := hitem a ha
    refine record_good env d.version rd hrd _ i p h1 (h.docinfoTypes p h2) ?_
    by_cases ht : p.type = "BinData"
    · exact Or.inr (h.docinfoData p h2 ht)
    · exact Or.inl ht
  | some bd =>
    have hemb : ∀ m, .start m ∈ eventsOf (f.map fun p => docItem d.version p.1 p.2) →
        embedItem bd m = .ok (withData bd m) ∧ IdShows env (withData bd m) := by
      intro m hm
      obtain ⟨i, p, h1, h2, rfl⟩ := hitem m hm
      exact embed_item env d.version rd hrd _ bd i p h1 (h.docinfoTypes p h2) (h.docinfoData p h2) (h.embedded bd hbd p h2)
    refine ⟨?_, ?_, ?_⟩
    · dsimp only [Gen.ofList]
      rw [embedGo_ok bd (withData bd) _ (fun m hm => (hemb m hm).1), wrap_ofList]
      rfl
    · intro a ha
      obtain ⟨m, h1, rfl⟩ := atStarts_mem _ _ _ ha
      exact (hemb m h1).2
    · dsimp only
      rw [atStarts_names _ (withData_model bd)]
      exact hnames

/-! ### Sections -/

theorem itemOf_notMade (i : Nat) (m : PModel Fields) : madeByPasses (itemOf i m) = false :=
  itemOf_cases i m (fun a => madeByPasses a = false) (fun _ => rfl) (fun _ => rfl) (fun _ => rfl) (fun _ => rfl) (fun _ => rfl) (fun _ => rfl)
    (fun _ => rfl) (fun _ => rfl) (fun _ => rfl) (fun _ => rfl) (fun _ => rfl)
    (fun _ => ⟨fun _ => rfl, fun _ => rfl, fun _ => rfl, fun _ => rfl⟩)

theorem section_part (env : XmlEnv) (rd : ModelReader Fields) (ver : Version) (hrd : ReadsDecls ver rd) (idx : Nat) (s : Bytes)
    (f : Forest (Nat × PModel Fields)) (hf : StreamTree rd s f) (hp : ProperSection (f.map fun p => itemOf p.1 p.2))
    (hb : BinDataOk (streamModels rd s).out) :
    ∃ b, (SectionBody idx f b ∧
        sectionEvents (some idx) (.ofList (eventsOf (f.map fun p => itemOf p.1 p.2))) = .ofList (eventsOf b)) ∧
      sectionDocEvents rd ver idx s = .ofList (eventsOf (b.map (concItem (streamModels rd s).out (streamCtx ver)))) ∧
      ∀ a, .start a ∈ eventsOf (b.map (concItem (streamModels rd s).out (streamCtx ver))) → IdShows env a := by
  obtain ⟨i, t, g, e, hw, c1, c2, c3, c4, c5⟩ := Props.C57_content (some idx) _ hp
  rw [e] at c2 c3
  have hev := modelEvents_tree Item.columnSet itemOf hf
  refine ⟨.node (.sectionDef (some idx) t) g .nil, ⟨⟨i, t, g, rfl, c1, c2, c3, c4, c5⟩, e⟩, ?_, ?_⟩
  · unfold sectionDocEvents
    dsimp only
    rw [hev, e]
    refine Gen.ext ?_ rfl
    exact map_eventsOf (concItem (streamModels rd s).out (streamCtx ver)) _ (fun _ => rfl) (fun _ => rfl) _
  · intro a ha
    obtain ⟨x, h1, rfl⟩ := start_map _ _ _ ha
    have hin : AllIn (Derived ((streamModels rd s).out.mapIdx itemOf)) (sectionEvents (some idx) (.ofList (eventsOf (f.map fun p => itemOf p.1 p.2)))).out := by
      apply section_in
      intro e' he'
      obtain ⟨p, h2, h3⟩ := start_map _ _ _ (start_of_mem _ _ he')
      rw [h3]
      refine ⟨?_, itemOf_notMade _ _⟩
      rw [List.mem_mapIdx]
      have := tree_model hf p h2
      obtain ⟨hl, hx⟩ := List.getElem?_eq_some_iff.1 this
      exact ⟨p.1, hl, by rw [hx]⟩
    rw [e] at hin
    have hx := hin _ h1
    dsimp only [Ev.item] at hx
    rw [tree_parse hf] at hx hb ⊢
    exact derived_good env ver rd hrd _ hb x hx

end Hwp
