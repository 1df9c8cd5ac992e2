/- The elements of records. -/
import Verif.Proofs.XmlShow
set_option linter.unusedSimpArgs false
set_option linter.unusedVariables false
namespace Hwp
open Spec

theorem parts_names (ctx : DCtx) : ∀ (mss : List DMembers) (parts : List Fields), PartsOf ctx mss parts →
    (parts.flatten.map (·.1)).Sublist (mss.flatMap DMembers.names)
  | [], [], _ => by simp
  | ms :: mss, fs :: fss, h => by
    simp only [PartsOf] at h
    simp only [List.flatten_cons, List.map_append, List.flatMap_cons]
    exact List.Sublist.append (fields_sublist ctx ms [] fs h.1) (parts_names ctx mss fss h.2)
  | [], _ :: _, h => by simp [PartsOf] at h
  | _ :: _, [], h => by simp [PartsOf] at h

theorem showParts_names (env : XmlEnv) (ctx : DCtx) : ∀ (mss : List DMembers) (parts : List Fields),
    PartsOf ctx mss parts → mss.all clearMembers = true → (mss.flatMap DMembers.names).Nodup →
    ((showParts env ctx mss parts).1.map (·.1)).Sublist (chainAttrNames mss)
  | [], [], _, _, _ => by simp [showParts]
  | ms :: mss, fs :: fss, h, hc, hn => by
    simp only [PartsOf] at h
    simp only [List.all_cons, Bool.and_eq_true] at hc
    simp only [List.flatMap_cons, List.nodup_append] at hn
    simp only [showParts, List.map_append, chainAttrNames, List.flatMap_cons]
    exact List.Sublist.append (showMembers_names env ctx ms [] fs h.1 hc.1 hn.1)
      (showParts_names env ctx mss fss h.2 hc.2 hn.2.1)
  | [], _ :: _, h, _, _ => by simp [PartsOf] at h
  | _ :: _, [], h, _, _ => by simp [PartsOf] at h

theorem lookup_filter_notin {V} (k : String) (ns : List String) (h : k ∉ ns) (fs : List (String × V)) :
    (fs.filter (fun p => decide (p.1 ∉ ns))).lookup k = fs.lookup k := by
  induction fs with
  | nil => rfl
  | cons q fs ih =>
    by_cases hq : q.1 ∈ ns
    · rw [List.filter_cons_of_neg (by simpa using hq), ih]
      have : (k == q.1) = false := by
        rw [beq_eq_false_iff_ne]
        rintro rfl
        exact h hq
      simp [List.lookup, this]
    · rw [List.filter_cons_of_pos (by simpa using hq)]
      simp only [List.lookup, ih]

/-- The typed attributes of a class with its bases. -/
theorem typedChain_show (env : XmlEnv) (ctx : DCtx) (ver : Version) (hv : ctx.version = some ver) :
    ∀ (mss : List DMembers) (parts : List Fields) (attrs : Fields), PartsOf ctx mss parts →
    mss.all clearMembers = true → (mss.flatMap DMembers.names).Nodup →
    (∀ p ∈ parts.flatten, attrs.lookup p.1 = some p.2) →
    ∃ items, typedChain env ctx mss attrs =
        .ok (items, attrs.filter fun p => decide (p.1 ∉ parts.flatten.map (·.1))) ∧
      AllShow env items (showParts env ctx mss parts) ∧ items.map (·.name) = parts.flatten.map (·.1)
  | [], [], attrs, _, _, _, _ => by
    refine ⟨[], ?_, by simp [AllShow, showParts], rfl⟩
    simp only [typedChain, List.flatten_nil, List.map_nil, List.not_mem_nil, not_false_eq_true, decide_true]
    rw [List.filter_eq_self.2 (fun _ _ => rfl)]
  | ms :: mss, fs :: fss, attrs, h, hc, hn, hl => by
    simp only [PartsOf] at h
    simp only [List.all_cons, Bool.and_eq_true] at hc
    simp only [List.flatMap_cons, List.nodup_append] at hn
    obtain ⟨items, e1, e2, e3⟩ := shows_members env ctx ver hv ms [] fs attrs h.1 hc.1 hn.1 (by simp)
      (fun p hp => hl p (by simp [hp]))
    have hsub := fields_sublist ctx ms [] fs h.1
    have hsub' := parts_names ctx mss fss h.2
    obtain ⟨items', e1', e2', e3'⟩ := typedChain_show env ctx ver hv mss fss
      (attrs.filter fun p => decide (p.1 ∉ fs.map (·.1))) h.2 hc.2 hn.2.1 (by
        intro p hp
        rw [lookup_filter_notin]
        · exact hl p (by rw [List.flatten_cons]; exact List.mem_append_right _ hp)
        · intro hm
          exact hn.2.2 p.1 (hsub.subset hm) p.1 (hsub'.subset (List.mem_map_of_mem hp)) rfl)
    refine ⟨items ++ items', ?_, ?_, ?_⟩
    · simp only [typedChain, e1, e1', bind, Except.bind, pure, Except.pure]
      congr 2
      rw [List.filter_filter]
      congr 1
      funext p
      by_cases h1 : p.1 ∈ fs.map (·.1) <;> by_cases h2 : p.1 ∈ fss.flatten.map (·.1) <;>
        simp only [List.flatten_cons, List.map_append, List.mem_append, h1, h2, not_true_eq_false,
          not_false_eq_true, or_true, true_or, or_false, false_or, or_self, decide_true, decide_false,
          Bool.and_true, Bool.true_and, Bool.and_false, Bool.false_and]
    · simp only [showParts]
      exact e2.append env e2'
    · simp [e3, e3']
  | [], _ :: _, _, h, _, _, _ => by simp [PartsOf] at h
  | _ :: _, [], _, h, _, _, _ => by simp [PartsOf] at h

theorem plain_shows (env : XmlEnv) : ∀ (es : Fields), (∀ p ∈ es, (plainText p.2).isSome = true) →
    AllShow env (untypedItems env es) (showPlain es, [])
  | [], _ => by simp [untypedItems, AllShow, showPlain]
  | (k, v) :: es, h => by
    have hv := h (k, v) (by simp)
    simp only [untypedItems]
    refine ⟨([(lit k, (plainText v).getD [])], []), _, ?_,
      plain_shows env es (fun p hp => h p (by simp [hp])), by simp [showPlain]⟩
    cases v with
    | leaf x =>
      refine ⟨fun hx => ?_, fun _ => ⟨?_, rfl⟩⟩
      · cases x <;> simp [AItem.complex, isComplexType, pyType, isMargin] at hx
      · cases x with
        | int n => simp [pyType, expand, xmlattrval, leafRepr_int, plainText]
        | str s => simp [pyType, expand, xmlattrval, plainText]
        | chid b => simp [pyType, expand, xmlattrval, plainText]
        | cls c => simp [pyType, expand, xmlattrval, plainText]
        | _ => simp [plainText] at hv
    | _ => simp [plainText] at hv

/-- The start of the element of a record. -/
theorem startModel_show (env : XmlEnv) (ctx : DCtx) (ver : Version) (hv : ctx.version = some ver)
    (model : String) (hm : model ≠ "Text") (parts : List Fields) (attrs : Fields)
    (hp : PartsOf ctx (classChain model) parts) (hc : clearChain (classChain model) = true)
    (hk : (attrs.map (·.1)).Nodup) (hsub : ∀ p ∈ parts.flatten, p ∈ attrs)
    (he : ∀ p ∈ attrs, p ∉ parts.flatten → (plainText p.2).isSome = true ∧ p.1 ≠ "<text>")
    (hn : ((((showParts env ctx (classChain model) parts).1 ++
      showPlain (attrs.filter fun p => decide (p.1 ∉ parts.flatten.map (·.1)))).map (·.1)).map hyphen).Nodup) :
    startModel env ⟨model, attrs, ctx⟩ = .ofList (.start (lit model)
      (hyphens ((showParts env ctx (classChain model) parts).1 ++
        showPlain (attrs.filter fun p => decide (p.1 ∉ parts.flatten.map (·.1))))) ::
      (showParts env ctx (classChain model) parts).2) := by
  simp only [clearChain, Bool.and_eq_true, decide_eq_true_eq] at hc
  obtain ⟨hc1, hc2⟩ := hc
  have hnn := (List.nodup_append.1 hc2).1
  have hnt : "<text>" ∉ (classChain model).flatMap DMembers.names := fun hx =>
    (List.nodup_append.1 hc2).2.2 _ hx "<text>" (by simp) rfl
  have hpn := parts_names ctx _ parts hp
  have hlk : ∀ p ∈ parts.flatten, attrs.lookup p.1 = some p.2 := by
    intro p hpp
    simpa using lookup_append_self attrs [] hk p (hsub p hpp)
  obtain ⟨items, e1, e2, e3⟩ := typedChain_show env ctx ver hv _ parts attrs hp hc1 hnn hlk
  have hes : ∀ p ∈ attrs.filter (fun p => decide (p.1 ∉ parts.flatten.map (·.1))),
      (plainText p.2).isSome = true ∧ p.1 ≠ "<text>" := by
    intro p hx
    rw [List.mem_filter, decide_eq_true_eq] at hx
    exact he p hx.1 (fun hm => hx.2 (List.mem_map_of_mem hm))
  have hall := e2.append env (plain_shows env _ (fun p hp => (hes p hp).1))
  simp only [startModel, typedAttributes, e1, withRemnants, bind, Except.bind, pure, Except.pure, hm]
  have := startElement_show env (lit model) _ _ hall ?_ ?_ hn
  · simpa using this
  · rw [List.map_append, e3, untypedItems_names, List.nodup_append]
    refine ⟨hnn.sublist hpn, hk.sublist (List.Sublist.map _ List.filter_sublist), ?_⟩
    rintro a ha b hb rfl
    obtain ⟨q, hq, rfl⟩ := List.mem_map.1 hb
    rw [List.mem_filter, decide_eq_true_eq] at hq
    exact hq.2 ha
  · intro i hi e
    rcases List.mem_append.1 hi with hi | hi
    · have : i.name ∈ items.map (·.name) := List.mem_map_of_mem hi
      rw [e3, e] at this
      exact hnt (hpn.subset this)
    · have : i.name ∈ (untypedItems env (attrs.filter fun p => decide (p.1 ∉ parts.flatten.map (·.1)))).map
          (·.name) := List.mem_map_of_mem hi
      rw [untypedItems_names] at this
      obtain ⟨q, hq, hqe⟩ := List.mem_map.1 this
      exact (hes q hq).2 (hqe.trans e)

end Hwp
