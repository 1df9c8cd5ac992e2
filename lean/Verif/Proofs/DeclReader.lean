/- Reading the declared classes. -/
import Verif.Spec.DeclReader
import Verif.Proofs.Decls
import Verif.Proofs.DeclsIndep
import Verif.Proofs.ModelParse
import Verif.Props.Bintype
set_option linter.unusedSimpArgs false
set_option linter.unusedVariables false
namespace Hwp
open Spec

/-! ### The pipeline -/

/-- Keys of selections. -/
def selKeysD : DSels → List Nat
  | .nil => []
  | .cons k _ rest => k :: selKeysD rest

/-- Is the type selective? -/
def isSelD : DTy → Bool
  | .selective _ _ => true
  | _ => false

mutual
/-- Declarations the pipeline is proved for. -/
def wfD : DTy → Bool
  | .prim _ => true
  | .flags _ => true
  | .struct _ ms => wfDMembers ms
  | .array t _ => wfD t
  | .nArray _ t => wfD t
  | .xArray t _ => wfD t
  | .selective _ ss => decide (selKeysD ss).Nodup && wfDSels ss
/-- Members. -/
def wfDMembers : DMembers → Bool
  | .nil => true
  | .cons _ _ condition t rest => wfD t && (!isSelD t || condition.isNone) && wfDMembers rest
/-- Selections. -/
def wfDSels : DSels → Bool
  | .nil => true
  | .cons _ t rest => wfD t && !isSelD t && wfDSels rest
end

theorem isSel_toTy (t : DTy) : IsSel t.toTy ↔ isSelD t = true := by
  cases t <;> simp [DTy.toTy, IsSel, isSelD]

theorem selKeys_to : ∀ (ss : DSels), selKeys ss.toSelections = (selKeysD ss).map (fun (k : Nat) => (k : Int))
  | .nil => by simp [DSels.toSelections, selKeys, selKeysD]
  | .cons k t rest => by simp [DSels.toSelections, selKeys, selKeysD, selKeys_to rest]

mutual
theorem wf_toTy : ∀ (t : DTy), wfD t = true → WfTy t.toTy
  | .prim _, _ => by simp [DTy.toTy, WfTy]
  | .flags _, _ => by simp [DTy.toTy, WfTy]
  | .struct _ ms, h => by
    simp only [wfD] at h
    simp only [DTy.toTy, WfTy]
    exact wf_toMembers ms h
  | .array t _, h => by
    simp only [wfD] at h
    simp only [DTy.toTy, WfTy]
    exact wf_toTy t h
  | .nArray _ t, h => by
    simp only [wfD] at h
    simp only [DTy.toTy, WfTy]
    exact wf_toTy t h
  | .xArray t _, h => by
    simp only [wfD] at h
    simp only [DTy.toTy, WfTy]
    exact wf_toTy t h
  | .selective _ ss, h => by
    simp only [wfD, Bool.and_eq_true, decide_eq_true_eq] at h
    simp only [DTy.toTy, WfTy]
    refine ⟨?_, wf_toSels ss h.2⟩
    rw [selKeys_to]
    exact List.pairwise_map.2 (h.1.imp (fun hne e => hne (by simpa using e)))
theorem wf_toMembers : ∀ (ms : DMembers), wfDMembers ms = true → WfMembers ms.toMembers
  | .nil, _ => by simp [DMembers.toMembers, WfMembers]
  | .cons name version condition t rest, h => by
    simp only [wfDMembers, Bool.and_eq_true] at h
    simp only [DMembers.toMembers, WfMembers]
    refine ⟨wf_toTy t h.1.1, ?_, wf_toMembers rest h.2⟩
    intro hs
    rw [isSel_toTy] at hs
    have := h.1.2
    rw [hs] at this
    cases condition with
    | none => rfl
    | some c => simp at this
theorem wf_toSels : ∀ (ss : DSels), wfDSels ss = true → WfSels ss.toSelections
  | .nil, _ => by simp [DSels.toSelections, WfSels]
  | .cons k t rest, h => by
    simp only [wfDSels, Bool.and_eq_true] at h
    simp only [DSels.toSelections, WfSels, isSel_toTy]
    exact ⟨wf_toTy t h.1.1, by simpa using h.1.2, wf_toSels rest h.2⟩
end

/-- A property of the members of all classes. -/
theorem all_members {P : DMembers → Bool} (h0 : P .nil = true)
    (h : classMembers.all (fun p => P p.2) = true) (c : String) : P (membersOf c) = true := by
  unfold membersOf
  cases hl : classMembers.lookup c with
  | none => exact h0
  | some ms =>
    rw [List.all_eq_true] at h
    have : (c, ms) ∈ classMembers := by
      clear h
      generalize classMembers = l at hl
      induction l with
      | nil => simp at hl
      | cons a l ih =>
        obtain ⟨k, v⟩ := a
        rw [List.lookup_cons] at hl
        split at hl
        · rename_i he
          simp at he hl
          subst he hl
          simp
        · exact List.mem_cons_of_mem _ (ih hl)
    exact h _ this

theorem classes_wf (c : String) : wfDMembers (membersOf c) = true :=
  all_members (P := wfDMembers) rfl (by decide +kernel) c

/-- The members of the paragraph record the other records of a paragraph refer to. -/
def paraCounts : List String := ["charshapes", "linesegs", "rangetags"]

theorem classes_declared (c : String) : wellDeclared paraCounts [] (membersOf c) = true :=
  all_members (P := wellDeclared paraCounts []) rfl (by decide +kernel) c

theorem classes_names (c : String) : (membersOf c).names.Nodup := by
  have := all_members (P := fun ms => decide ms.names.Nodup) rfl (by decide +kernel) c
  simpa using this

theorem classes_clear (c : String) : clearMembers (membersOf c) = true :=
  all_members (P := clearMembers) rfl (by decide +kernel) c

theorem classes_named (c : String) : namedMembers (membersOf c) = true :=
  all_members (P := namedMembers) rfl (by decide +kernel) c

theorem readWhole_struct (ver : Version) (ctx : DCtx) (ms : DMembers) (s : Bytes) :
    readWhole .keyError (some ver) ctx (.struct ms.toMembers) s =
      (readMembers .keyError (some ver) ctx ms.toMembers [] s).map fun r => (.struct r.1, r.2) := by
  unfold readWhole
  simp only [readTy]
  cases readMembers .keyError (some ver) ctx ms.toMembers [] s with
  | error e => rfl
  | ok r => rfl

theorem map_struct_inj {a b : Except PyErr (Fields × Bytes)}
    (h : (a.map fun r => ((.struct r.1 : Value PVal), r.2)) = b.map fun r => (.struct r.1, r.2)) : a = b := by
  cases a with
  | error e =>
    cases b with
    | error e' => simpa [Except.map] using h
    | ok r => simp [Except.map] at h
  | ok r =>
    cases b with
    | error e' => simp [Except.map] at h
    | ok r' =>
      simp only [Except.map, Except.ok.injEq, Prod.mk.injEq, Value.struct.injEq] at h
      obtain ⟨r1, r2⟩ := r
      obtain ⟨r1', r2'⟩ := r'
      simp only at h
      rw [h.1, h.2]

theorem reader_unique (ver : Version) (rd : ModelReader Fields) :
    ReadsDecls ver rd ↔ rd = directReader ver := by
  constructor
  · intro h
    have hr : rd.read = directRead ver := by
      funext parent c s
      obtain ⟨fuel, hf⟩ := h.read parent c s
      have := Props.C37_pipeline_result_unique (some ver) ⟨some ver, some parent⟩ (classTy c)
        (by unfold classTy; simp only [WfTy]; exact wf_toMembers _ (classes_wf c)) s fuel _ hf
      have e : classTy c = .struct (membersOf c).toMembers := rfl
      rw [e, readWhole_struct] at this
      exact map_struct_inj this
    obtain ⟨r, c, u⟩ := rd
    have h1 := h.chid
    have h2 := h.update
    simp only at hr h1 h2
    rw [hr, h1, h2]
    rfl
  · rintro rfl
    refine ⟨?_, rfl, rfl⟩
    intro parent c s
    obtain ⟨fuel, hf⟩ := Props.C37_pipeline_reads_declaration (some ver) ⟨some ver, some parent⟩ (classTy c)
        (by unfold classTy; simp only [WfTy]; exact wf_toMembers _ (classes_wf c)) s
    refine ⟨fuel, ?_⟩
    have := hf 0
    rw [Nat.add_zero] at this
    rw [this]
    have e : classTy c = .struct (membersOf c).toMembers := rfl
    rw [e, readWhole_struct]
    rfl

/-! ### Contents -/

theorem contentUpdate_new : ∀ (more content : Fields), ((content ++ more).map (·.1)).Nodup →
    contentUpdate content more = content ++ more
  | [], content, _ => by simp [contentUpdate]
  | (n, v) :: more, content, h => by
    have hn : n ∉ content.map (·.1) := by
      intro hm
      rw [List.map_append, List.nodup_append] at h
      exact h.2.2 n hm n (by simp) rfl
    have := contentUpdate_new more (content ++ [(n, v)]) (by simpa using h)
    unfold contentUpdate at this ⊢
    simp only [List.foldl_cons]
    rw [setField_new n v content hn, this]
    simp

/-- What reading a class gives. -/
theorem directRead_ok {ver : Version} {parent : Option (String × Fields)} {c : String} {s s' : Bytes} {fs : Fields}
    (h : directRead ver parent c s = .ok (fs, s')) :
    ((∀ n ∈ selNames (membersOf c), n ∈ fs.map (·.1)) → FieldsOf ⟨some ver, some parent⟩ (membersOf c) [] fs) ∧
    ∀ n ∈ fs.map (·.1), n ∈ (membersOf c).names := by
  have hp : ParentFit (fun _ => True) (⟨some ver, some parent⟩ : DCtx) paraCounts := by
    refine ⟨?_, Or.inr trivial⟩
    intro n _
    cases RefDecl.eval (⟨some ver, some parent⟩ : DCtx) [] (.parentMember n) with
    | ok v => exact Or.inl ⟨v, rfl⟩
    | error e => exact Or.inr ⟨e, trivial, rfl⟩
  have := (read_members .keyError (fun _ => True) trivial ⟨some ver, some parent⟩ paraCounts hp (membersOf c) [] [] s
    (classes_declared c) (by intro d hd; simp at hd) (classes_names c) (by simp)).2 fs s' h
  obtain ⟨fs', rfl, h1, h2⟩ := this
  exact ⟨h1, h2⟩

theorem partsOf_append {ctx : DCtx} : ∀ {mss nss : List DMembers} {ps qs : List Fields},
    PartsOf ctx mss ps → PartsOf ctx nss qs → PartsOf ctx (mss ++ nss) (ps ++ qs)
  | [], _, [], _, _, h => h
  | ms :: mss, _, p :: ps, _, h, h' => by
    simp only [PartsOf, List.cons_append] at h ⊢
    exact ⟨h.1, partsOf_append h.2 h'⟩
  | [], _, _ :: _, _, h, _ => by simp [PartsOf] at h
  | _ :: _, _, [], _, h, _ => by simp [PartsOf] at h

/-- Reading classes one after the other. -/
theorem reads_parts {ver : Version} {parent : Option (String × Fields)} {cs : List String} {s s' : Bytes}
    {content : Fields} (h : Reads (directRead ver parent) contentUpdate cs s content s')
    (hs : ∀ c ∈ cs, selNames (membersOf c) = []) (hn : (cs.flatMap fun c => (membersOf c).names).Nodup) :
    ∃ parts, content = parts.flatten ∧ PartsOf ⟨some ver, some parent⟩ (cs.map membersOf) parts := by
  induction h with
  | @one c s v r h =>
    refine ⟨[v], by simp, ?_⟩
    simp only [List.map_cons, List.map_nil, PartsOf, and_true]
    exact (directRead_ok h).1 (by rw [hs c (by simp)]; simp)
  | @snoc cs c s v w r r' h1 h2 ih =>
    rw [List.flatMap_append] at hn
    obtain ⟨parts, rfl, hp⟩ := ih (fun c hc => hs c (by simp [hc])) (List.nodup_append.1 hn).1
    have hw := (directRead_ok h2).1 (by rw [hs c (by simp)]; simp)
    refine ⟨parts ++ [w], ?_, ?_⟩
    · rw [contentUpdate_new, List.flatten_append]
      · simp
      · refine hn.sublist ?_
        rw [List.map_append]
        refine List.Sublist.append ?_ ?_
        · have := parts_names _ _ _ hp
          simpa [List.flatMap_map] using this
        · simpa using fields_sublist _ _ _ _ hw
    · rw [List.map_append]
      refine partsOf_append hp ?_
      simp only [List.map_cons, List.map_nil, PartsOf, and_true]
      exact hw

/-- Classes without members do not matter. -/
theorem parts_declared {ctx : DCtx} : ∀ (cs : List String) (parts : List Fields),
    PartsOf ctx (cs.map membersOf) parts →
    ∃ parts', parts'.flatten = parts.flatten ∧ PartsOf ctx (cs.filterMap (classMembers.lookup ·)) parts'
  | [], [], _ => ⟨[], rfl, by simp [PartsOf]⟩
  | c :: cs, p :: ps, h => by
    simp only [List.map_cons, PartsOf] at h
    obtain ⟨ps', h1, h2⟩ := parts_declared cs ps h.2
    have h0 := h.1
    unfold membersOf at h0
    cases hl : classMembers.lookup c with
    | none =>
      rw [hl] at h0
      simp only [Option.getD_none, FieldsOf] at h0
      refine ⟨ps', by simp [h1, h0], ?_⟩
      rw [List.filterMap_cons, hl]
      exact h2
    | some ms =>
      rw [hl] at h0
      refine ⟨p :: ps', by simp [h1], ?_⟩
      rw [List.filterMap_cons, hl]
      simp only [PartsOf]
      exact ⟨h0, h2⟩
  | [], _ :: _, h => by simp [PartsOf] at h
  | _ :: _, [], h => by simp [PartsOf] at h

theorem filterMap_filter_isSome {α β} (f : α → Option β) (l : List α) :
    l.filterMap f = (l.filter fun a => (f a).isSome).filterMap f := by
  induction l with
  | nil => rfl
  | cons a l ih =>
    cases h : f a with
    | none => simp [List.filterMap_cons, h, ih]
    | some b => simp [List.filterMap_cons, h, ih]

/-- The classes the XML form looks at are those that are read. -/
theorem chain_classes (t : String) (ht : t ∈ modelNames) :
    classChain t = (memberClasses t).filterMap (classMembers.lookup ·) := by
  have h : ∀ t ∈ modelNames, (mro 4 t).reverse.filter (fun c => (classMembers.lookup c).isSome) =
      (memberClasses t).filter (fun c => (classMembers.lookup c).isSome) := by decide +kernel
  unfold classChain
  rw [filterMap_filter_isSome, h t ht, ← filterMap_filter_isSome]

theorem classes_disjoint (t : String) (ht : t ∈ modelNames) :
    ((memberClasses t).flatMap fun c => (membersOf c).names).Nodup := by
  have h : ∀ t ∈ modelNames, ((memberClasses t).flatMap fun c => (membersOf c).names).Nodup := by
    decide +kernel
  exact h t ht

theorem classes_plain (t : String) (ht : t ∈ modelNames) (hb : t ≠ "BinData") :
    ∀ c ∈ memberClasses t, selNames (membersOf c) = [] := by
  have h : ∀ t ∈ modelNames, t ≠ "BinData" → ∀ c ∈ memberClasses t, selNames (membersOf c) = [] := by
    decide +kernel
  exact h t ht hb

theorem chain_clear (t : String) (ht : t ∈ modelNames) : clearChain (classChain t) = true := by
  have h : ∀ t ∈ modelNames, clearChain (classChain t) = true := by decide +kernel
  exact h t ht

/-! ### Types -/

/-- The types of parsed models. -/
theorem resolved_type {κ} {rd : ModelReader κ} {parent : PFrame κ} {r : Record} {t : String} {c : κ} {s : Bytes}
    (h : resolveModel rd parent r = .ok (t, c, s)) : t ∈ modelNames := by
  obtain ⟨c0, s0, h1, h2⟩ := resolveModel_ok h
  unfold modelNames
  rcases h2 with ⟨-, rfl, -, -⟩ | ⟨h2, -⟩
  · unfold baseType
    cases hl : tagModels.lookup r.tagid with
    | none => simp
    | some t =>
      have := lookup_mem_snd hl
      simp only [Option.getD_some, List.mem_append]
      exact Or.inl (Or.inl (Or.inl (Or.inl this)))
  · simp only [List.mem_append]
    rcases extensionOf_some h2 with ⟨-, hm⟩ | ⟨-, hm⟩ | ⟨-, hm⟩
    · exact Or.inl (Or.inl (Or.inl (Or.inr hm)))
    · exact Or.inl (Or.inl (Or.inr hm))
    · exact Or.inl (Or.inr hm)

/-! ### Without the parent -/

theorem indep_parts (t : String) (ht : t ∈ modelNames) (hp : t ∉ paragraphParts) (hs : t ≠ "ShapeComponent") :
    ∀ c ∈ memberClasses t, indepMembers "" (membersOf c) = true := by
  have h : ∀ t ∈ modelNames, t ∉ paragraphParts → t ≠ "ShapeComponent" →
      ∀ c ∈ memberClasses t, indepMembers "" (membersOf c) = true := by decide +kernel
  exact h t ht hp hs

theorem parts_indep {ctx ctx' : DCtx} (hv : ctx.version = ctx'.version) : ∀ (mss : List DMembers) (parts : List Fields),
    (∀ ms ∈ mss, indepMembers "" ms = true) → PartsOf ctx mss parts → PartsOf ctx' mss parts
  | [], [], _, h => by simp [PartsOf]
  | ms :: mss, p :: ps, hi, h => by
    simp only [PartsOf] at h ⊢
    exact ⟨(fields_indep hv "" ms [] [] p (fun _ _ => rfl) (hi ms (by simp))).1 h.1,
      parts_indep hv mss ps (fun m hm => hi m (by simp [hm])) h.2⟩
  | [], _ :: _, _, h => by simp [PartsOf] at h
  | _ :: _, [], _, h => by simp [PartsOf] at h

/-- A shape component without `chid0`. -/
theorem shape_indep {ver : Version} {parent : Option (Option (String × Fields))} {fs : Fields}
    (h : FieldsOf ⟨some ver, parent⟩ (membersOf "ShapeComponent") [] fs) :
    ∃ fs', FieldsOf ⟨some ver, none⟩ (membersOf "ShapeComponent") [] fs' ∧
      (fs = fs' ∨ ∃ b, b.length = 4 ∧ fs = ("chid0", .leaf (.chid b)) :: fs') := by
  obtain ⟨rest, hm, hi⟩ : ∃ rest, membersOf "ShapeComponent" =
      .cons "chid0" none (some .parentIsGso) (.prim .chid) rest ∧ indepMembers "chid0" rest = true := by
    refine ⟨_, rfl, ?_⟩
    decide +kernel
  rw [hm, FieldsOf.eq_def] at h
  simp only at h
  rcases h with ⟨_, _, h⟩ | ⟨_, v, fs', rfl, hs, h⟩
  · refine ⟨fs, ?_, Or.inl rfl⟩
    rw [hm, FieldsOf.eq_def]
    refine Or.inl ⟨Or.inr ⟨_, rfl, rfl⟩, trivial, ?_⟩
    exact (fields_indep (ctx := ⟨some ver, parent⟩) (ctx' := ⟨some ver, none⟩) rfl "chid0" rest [] [] fs
      (fun _ _ => rfl) hi).1 h
  · cases v with
    | leaf x =>
      cases x with
      | chid b =>
        refine ⟨fs', ?_, Or.inr ⟨b, by simpa [Shaped, PrimVal] using hs, rfl⟩⟩
        rw [hm, FieldsOf.eq_def]
        refine Or.inl ⟨Or.inr ⟨_, rfl, rfl⟩, trivial, ?_⟩
        refine (fields_indep (ctx := ⟨some ver, parent⟩) (ctx' := ⟨some ver, none⟩) rfl "chid0" rest
          ([] ++ [("chid0", .leaf (.chid b))]) [] fs' ?_ hi).1 h
        intro n hn
        have : (n == "chid0") = false := beq_eq_false_iff_ne.2 hn
        simp [List.lookup, this]
      | _ => simp [Shaped, PrimVal] at hs
    | _ => simp [Shaped] at hs

end Hwp
