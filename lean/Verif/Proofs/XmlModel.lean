/- Proofs: the elements of parsed models. -/
import Verif.Proofs.XmlRecord
import Verif.Proofs.DeclModel
set_option linter.unusedSimpArgs false
set_option linter.unusedVariables false
namespace Hwp
open Spec

theorem chain_named (t : String) (ht : t ∈ modelNames) : (classChain t).all namedMembers = true := by
  have h : ∀ t ∈ modelNames, (classChain t).all namedMembers = true := by decide +kernel
  exact h t ht

theorem model_valid (t : String) (ht : t ∈ modelNames) : ValidName (lit t) := by
  have h : ∀ t ∈ modelNames, ValidName (lit t) := by decide +kernel
  exact h t ht

theorem id_valid (n : String) (hn : n ∈ "chid0" :: idNames) : ValidName (hyphen (lit n)) := by
  have h : ∀ n ∈ "chid0" :: idNames, ValidName (hyphen (lit n)) := by decide +kernel
  exact h n hn

theorem chain_attrs_distinct (t : String) (ht : t ∈ modelNames) (hd : t ≠ "DocumentProperties") :
    ((chainAttrNames (classChain t) ++ idNames.map lit).map hyphen).Nodup := by
  have h : ∀ t ∈ modelNames, t ≠ "DocumentProperties" →
      ((chainAttrNames (classChain t) ++ idNames.map lit).map hyphen).Nodup := by decide +kernel
  exact h t ht hd

theorem docprops_distinct : ((chainAttrNames (classChain "DocumentProperties")).map hyphen).Nodup := by decide +kernel

theorem chain_attr_valid : ∀ (mss : List DMembers), mss.all namedMembers = true → ∀ n ∈ chainAttrNames mss, ValidName (hyphen n) := by
  intro mss h n hn
  simp only [chainAttrNames, List.mem_flatMap] at hn
  obtain ⟨ms, hm, hn⟩ := hn
  rw [List.all_eq_true] at h
  exact named_members ms (h ms hm) n hn

theorem ids_nodup_append {t : String} {ids : Fields} (h : IdsFor t ids) (ht : t ∈ modelNames) {ns : List PyStr}
    (hs : ns.Sublist (chainAttrNames (classChain t))) : ((ns ++ ids.map (fun p => lit p.1)).map hyphen).Nodup := by
  by_cases hd : t = "DocumentProperties"
  · rw [h.none hd]
    simp only [List.map_nil, List.append_nil]
    subst hd
    exact docprops_distinct.sublist (hs.map _)
  · have := chain_attrs_distinct t ht hd
    rw [List.map_append, List.nodup_append] at this ⊢
    refine ⟨this.1.sublist (hs.map _), ?_, ?_⟩
    · rw [List.map_map, List.Nodup, List.pairwise_map]
      have hn := h.nodup
      rw [List.Nodup, List.pairwise_map] at hn
      refine List.Pairwise.imp_of_mem ?_ hn
      intro a b ha hb hab e
      have hinj : ∀ a ∈ idNames, ∀ b ∈ idNames, hyphen (lit a) = hyphen (lit b) → a = b := by decide +kernel
      exact hab (hinj _ (h.names a ha) _ (h.names b hb) e)
    · intro a ha b hb
      refine this.2.2 a ((hs.map _).subset ha) b ?_
      rw [List.mem_map] at hb ⊢
      obtain ⟨x, hx, rfl⟩ := hb
      obtain ⟨p, hp, rfl⟩ := List.mem_map.1 hx
      exact ⟨_, List.mem_map_of_mem (h.names p hp), rfl⟩

theorem showPlain_names (es : Fields) : (showPlain es).map (·.1) = es.map (fun p => lit p.1) := by
  simp [showPlain]

theorem filter_parts {fs ids : Fields} (h : ∀ p ∈ ids, p.1 ∉ fs.map (·.1)) :
    (fs ++ ids).filter (fun p => decide (p.1 ∉ fs.map (·.1))) = ids := by
  rw [List.filter_append, List.filter_eq_nil_iff.2, List.filter_eq_self.2, List.nil_append]
  · intro p hp
    simpa using h p hp
  · intro p hp
    simp only [decide_not, Bool.not_eq_eq_eq_not, Bool.not_true, decide_eq_false_iff_not, Decidable.not_not]
    exact List.mem_map_of_mem hp

theorem names_not_ids (t : String) (ht : t ∈ modelNames) (hd : t ≠ "DocumentProperties") :
    ∀ n ∈ (classChain t).flatMap DMembers.names, n ∉ "<text>" :: idNames := by
  have h : ∀ t ∈ modelNames, t ≠ "DocumentProperties" → ∀ n ∈ (classChain t).flatMap DMembers.names, n ∉ "<text>" :: idNames := by
    decide +kernel
  exact h t ht hd

/-- The element of a content with its ids. -/
theorem model_shown (env : XmlEnv) (ctx : DCtx) (ver : Version) (hv : ctx.version = some ver) (t : String)
    (ht : t ∈ modelNames) (parts : List Fields) (hp : PartsOf ctx (classChain t) parts) (ids : Fields) (hi : IdsFor t ids) :
    startModel env ⟨t, parts.flatten ++ ids, ctx⟩ = .ofList (.start (lit t)
      (hyphens ((showParts env ctx (classChain t) parts).1 ++ showPlain ids)) ::
      (showParts env ctx (classChain t) parts).2) := by
  have hc := chain_clear t ht
  have hc' := hc
  simp only [clearChain, Bool.and_eq_true, decide_eq_true_eq] at hc'
  have hnn := (List.nodup_append.1 hc'.2).1
  have hsub := parts_names ctx _ parts hp
  have hdis : ∀ p ∈ ids, p.1 ∉ parts.flatten.map (·.1) := by
    intro p hpi hm
    by_cases hd : t = "DocumentProperties"
    · rw [hi.none hd] at hpi; simp at hpi
    · exact names_not_ids t ht hd p.1 (hsub.subset hm) (by simp [hi.names p hpi])
  have hfil := filter_parts hdis
  have hm : t ≠ "Text" := by
    rintro rfl
    have : "Text" ∉ modelNames := by decide +kernel
    exact this ht
  have := startModel_show env ctx ver hv t hm parts (parts.flatten ++ ids) hp hc ?_ (fun p hp => by simp [hp]) ?_ ?_
  · rw [hfil] at this
    exact this
  · rw [List.map_append, List.nodup_append]
    refine ⟨hnn.sublist hsub, hi.nodup, ?_⟩
    rintro a ha b hb rfl
    obtain ⟨p, hp, rfl⟩ := List.mem_map.1 hb
    exact hdis p hp ha
  · intro p hp hnp
    have hpi := (List.mem_append.1 hp).resolve_left hnp
    refine ⟨hi.plain p hpi, ?_⟩
    have := hi.names p hpi
    intro e
    rw [e] at this
    exact absurd this (by decide +kernel)
  · rw [hfil, List.map_append, showPlain_names]
    exact ids_nodup_append hi ht (showParts_names env ctx _ parts hp hc'.1 hnn)

theorem shown_neat (env : XmlEnv) (ctx : DCtx) (t : String) (ht : t ∈ modelNames) (parts : List Fields)
    (hp : PartsOf ctx (classChain t) parts) (ids : Fields) (hi : IdsFor t ids) :
    NamesOk (.start (lit t) (hyphens ((showParts env ctx (classChain t) parts).1 ++ showPlain ids))) ∧
    Neat (showParts env ctx (classChain t) parts).2 := by
  have hc := chain_clear t ht
  simp only [clearChain, Bool.and_eq_true, decide_eq_true_eq] at hc
  have hnn := (List.nodup_append.1 hc.2).1
  have hsub := showParts_names env ctx _ parts hp hc.1 hnn
  refine ⟨⟨model_valid t ht, ?_, ?_⟩, neat_parts env ctx _ parts hp hc.1 (chain_named t ht) hnn⟩
  · rw [hyphens_names, List.map_append, showPlain_names]
    exact ids_nodup_append hi ht hsub
  · intro a ha
    have : a.1 ∈ (hyphens ((showParts env ctx (classChain t) parts).1 ++ showPlain ids)).map (·.1) := List.mem_map_of_mem ha
    rw [hyphens_names, List.map_append, List.map_append, List.mem_append, showPlain_names] at this
    rcases this with h | h
    · obtain ⟨n, hn, e⟩ := List.mem_map.1 h
      rw [← e]
      exact chain_attr_valid _ (chain_named t ht) n (hsub.subset hn)
    · obtain ⟨n, hn, e⟩ := List.mem_map.1 h
      obtain ⟨p, hp, rfl⟩ := List.mem_map.1 hn
      rw [← e]
      exact id_valid p.1 (by simp [hi.names p hp])

/-! ### Shape components -/

theorem shape_chain : ∃ rest, classChain "ShapeComponent" = [.cons "chid0" none (some .parentIsGso) (.prim .chid) rest] ∧
    membersOf "ShapeComponent" = .cons "chid0" none (some .parentIsGso) (.prim .chid) rest ∧
    ((membersAttrNames rest ++ lit "chid0" :: idNames.map lit).map hyphen).Nodup := by
  refine ⟨_, rfl, rfl, ?_⟩
  decide +kernel

theorem shape_fields {ver : Version} {rest : DMembers} {fs : Fields}
    (h : FieldsOf ⟨some ver, none⟩ (.cons "chid0" none (some .parentIsGso) (.prim .chid) rest) [] fs) :
    FieldsOf ⟨some ver, none⟩ rest [] fs := by
  rw [FieldsOf.eq_def] at h
  rcases h with h | h
  · exact h.2.2
  · have := h.1.2 _ rfl
    simp [CondDecl.eval] at this

/-- The element of a shape component in a group, whose `chid0` comes last. -/
theorem shape_shown (env : XmlEnv) (ver : Version) (fs : Fields) (b : Bytes)
    (hf : FieldsOf ⟨some ver, none⟩ (membersOf "ShapeComponent") [] fs) (ids : Fields) (hi : IdsFor "ShapeComponent" ids) :
    startModel env ⟨"ShapeComponent", ("chid0", .leaf (.chid b)) :: fs ++ ids, ⟨some ver, none⟩⟩ =
      .ofList (.start (lit "ShapeComponent") (hyphens ((showParts env ⟨some ver, none⟩ (classChain "ShapeComponent") [fs]).1 ++
        showPlain (("chid0", .leaf (.chid b)) :: ids))) :: (showParts env ⟨some ver, none⟩ (classChain "ShapeComponent") [fs]).2) ∧
    NamesOk (.start (lit "ShapeComponent") (hyphens ((showParts env ⟨some ver, none⟩ (classChain "ShapeComponent") [fs]).1 ++
        showPlain (("chid0", .leaf (.chid b)) :: ids)))) := by
  have ht : "ShapeComponent" ∈ modelNames := by decide +kernel
  obtain ⟨rest, hch, hmo, hnd⟩ := shape_chain
  rw [hmo] at hf
  have hr := shape_fields hf
  have hc := chain_clear _ ht
  have hc' := hc
  simp only [clearChain, Bool.and_eq_true, decide_eq_true_eq] at hc'
  rw [hch] at hc'
  obtain ⟨hc1, hc2⟩ := hc'
  simp only [List.all_cons, List.all_nil, Bool.and_true, clearMembers, Bool.and_eq_true] at hc1
  simp only [List.flatMap_cons, List.flatMap_nil, List.append_nil, DMembers.names, List.cons_append, List.nodup_cons] at hc2
  have hrn : rest.names.Nodup := (List.nodup_append.1 hc2.2).1
  have hsub := fields_sublist ⟨some ver, none⟩ rest [] fs hr
  have h0 : "chid0" ∉ fs.map (·.1) := fun hm => hc2.1 (List.mem_append_left _ (hsub.subset hm))
  have hpo : PartsOf ⟨some ver, none⟩ (classChain "ShapeComponent") [fs] := by
    rw [hch]
    simp only [PartsOf, and_true]
    exact hf
  have hshow : (showParts env ⟨some ver, none⟩ (classChain "ShapeComponent") [fs]).1 =
      (showMembers env ⟨some ver, none⟩ rest [] fs).1 := by
    rw [hch]
    simp only [showParts, List.append_nil]
    rw [showMembers.eq_def]
    cases hfs : fs with
    | nil => cases rest <;> simp [showMembers]
    | cons p fs' =>
      obtain ⟨n, v⟩ := p
      have : n ≠ "chid0" := by
        rintro rfl
        rw [hfs] at h0
        simp at h0
      simp only [this, if_false]
  have hsn := showMembers_names env ⟨some ver, none⟩ rest [] fs hr hc1.2 hrn
  have hnames : ((((showParts env ⟨some ver, none⟩ (classChain "ShapeComponent") [fs]).1 ++
      showPlain (("chid0", .leaf (.chid b)) :: ids)).map (·.1)).map hyphen).Nodup := by
    rw [hshow, List.map_append, showPlain_names, List.map_cons]
    rw [List.map_append, List.nodup_append] at hnd ⊢
    have hidn := (List.nodup_append.1 ((List.map_append (f := hyphen) (l₁ := []) (l₂ := _)) ▸ ids_nodup_append hi ht (ns := []) (by simp))).2.1
    refine ⟨hnd.1.sublist (hsn.map _), ?_, ?_⟩
    · rw [List.map_cons, List.nodup_cons] at hnd ⊢
      refine ⟨?_, hidn⟩
      intro hm
      apply hnd.2.1.1
      rw [List.mem_map] at hm ⊢
      obtain ⟨x, hx, e⟩ := hm
      obtain ⟨p, hp, rfl⟩ := List.mem_map.1 hx
      exact ⟨_, List.mem_map_of_mem (hi.names p hp), e⟩
    · intro a ha c hc
      refine hnd.2.2 a ((hsn.map _).subset ha) c ?_
      rw [List.map_cons, List.mem_cons] at hc ⊢
      rcases hc with hc | hc
      · exact Or.inl hc
      · right
        rw [List.mem_map] at hc ⊢
        obtain ⟨x, hx, e⟩ := hc
        obtain ⟨p, hp, rfl⟩ := List.mem_map.1 hx
        exact ⟨_, List.mem_map_of_mem (hi.names p hp), e⟩
  have hdis : ∀ p ∈ ids, p.1 ∉ fs.map (·.1) := by
    intro p hpi hm
    refine names_not_ids _ ht (by decide) p.1 ?_ (by simp [hi.names p hpi])
    rw [hch]
    simp [DMembers.names, hsub.subset hm]
  have hfil : (("chid0", .leaf (.chid b)) :: fs ++ ids).filter (fun p => decide (p.1 ∉ [fs].flatten.map (·.1))) =
      ("chid0", .leaf (.chid b)) :: ids := by
    rw [List.cons_append, List.filter_cons_of_pos (by simpa using h0)]
    congr 1
    rw [List.flatten_cons, List.flatten_nil, List.append_nil]
    exact filter_parts hdis
  constructor
  · have := startModel_show env ⟨some ver, none⟩ ver rfl "ShapeComponent" (by decide) [fs] (("chid0", .leaf (.chid b)) :: fs ++ ids)
      hpo hc ?_ (fun p hp => by
        rw [List.flatten_cons, List.flatten_nil, List.append_nil] at hp
        rw [List.cons_append]
        exact List.mem_cons_of_mem _ (List.mem_append_left _ hp)) ?_ ?_
    · rw [hfil] at this
      exact this
    · rw [List.cons_append, List.map_cons, List.nodup_cons, List.map_append]
      refine ⟨?_, ?_⟩
      · rw [List.mem_append]
        rintro (h | h)
        · exact h0 h
        · obtain ⟨p, hp, e⟩ := List.mem_map.1 h
          have := hi.names p hp
          rw [e] at this
          have h1 : "chid0" ∉ idNames := by decide +kernel
          exact h1 this
      · rw [List.nodup_append]
        refine ⟨hrn.sublist hsub, hi.nodup, ?_⟩
        rintro a ha b hb rfl
        obtain ⟨p, hp, rfl⟩ := List.mem_map.1 hb
        exact hdis p hp ha
    · intro p hp hnp
      rw [List.cons_append, List.mem_cons, List.mem_append] at hp
      rcases hp with rfl | hp | hp
      · exact ⟨rfl, by simp⟩
      · exact absurd (by simpa using hp) hnp
      · refine ⟨hi.plain p hp, ?_⟩
        intro e
        have := hi.names p hp
        rw [e] at this
        exact absurd this (by decide +kernel)
    · rw [hfil]
      exact hnames
  · refine ⟨model_valid _ ht, by rw [hyphens_names]; exact hnames, ?_⟩
    intro a ha
    have : a.1 ∈ (hyphens ((showParts env ⟨some ver, none⟩ (classChain "ShapeComponent") [fs]).1 ++
      showPlain (("chid0", .leaf (.chid b)) :: ids))).map (·.1) := List.mem_map_of_mem ha
    rw [hyphens_names, List.map_append, List.map_append, List.mem_append, showPlain_names] at this
    have hnm := chain_named _ ht
    rw [hch] at hnm
    simp only [List.all_cons, List.all_nil, Bool.and_true, namedMembers, Bool.and_eq_true] at hnm
    rcases this with h | h
    · obtain ⟨n, hn, e⟩ := List.mem_map.1 h
      rw [← e]
      rw [hshow] at hn
      exact named_members rest hnm.2 n (hsn.subset hn)
    · obtain ⟨n, hn, e⟩ := List.mem_map.1 h
      obtain ⟨p, hp, rfl⟩ := List.mem_map.1 hn
      rw [← e]
      rw [List.mem_cons] at hp
      rcases hp with rfl | hp
      · exact id_valid _ (by simp)
      · exact id_valid p.1 (by simp [hi.names p hp])

end Hwp
