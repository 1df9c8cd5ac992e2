/- The elements of record contents are the ones of the specification. -/
import Verif.Proofs.XmlFormat
set_option linter.unusedSimpArgs false
set_option linter.unusedVariables false
namespace Hwp
open Spec

/-! ### Fields -/

theorem setField_new {V} (k : String) (v : Value V) (fs : List (String × Value V))
    (h : k ∉ fs.map (·.1)) : setField k v fs = fs ++ [(k, v)] := by
  induction fs with
  | nil => rfl
  | cons p fs ih =>
    obtain ⟨n, w⟩ := p
    simp only [List.map_cons, List.mem_cons, not_or] at h
    simp only [setField]
    rw [if_neg (fun e => h.1 e.symm), ih h.2]
    rfl

theorem lookup_append_self {V} (fs gs : List (String × V)) (hn : (fs.map (·.1)).Nodup) :
    ∀ p ∈ fs, (fs ++ gs).lookup p.1 = some p.2 := by
  induction fs with
  | nil => simp
  | cons q fs ih =>
    intro p hp
    simp only [List.map_cons, List.nodup_cons] at hn
    rcases List.mem_cons.1 hp with rfl | hp
    · simp [List.lookup]
    · have hne : p.1 ≠ q.1 := by
        intro e
        exact hn.1 (e ▸ List.mem_map_of_mem hp)
      simp only [List.cons_append, List.lookup, beq_eq_false_iff_ne.2 hne]
      exact ih hn.2 p hp

theorem lookup_filter_ne {V} (k n : String) (h : k ≠ n) (fs : List (String × V)) :
    (fs.filter (fun p => decide (p.1 ≠ n))).lookup k = fs.lookup k := by
  induction fs with
  | nil => rfl
  | cons q fs ih =>
    by_cases hq : q.1 = n
    · rw [List.filter_cons_of_neg (by simp [hq]), ih]
      have : (k == q.1) = false := by rw [hq]; simpa using h
      simp [List.lookup, this]
    · rw [List.filter_cons_of_pos (by simp [hq])]
      simp only [List.lookup, ih]

/-- The names of the fields are names of members, in order. -/
theorem fields_sublist (ctx : DCtx) : ∀ (ms : DMembers) (acc fs : Fields), FieldsOf ctx ms acc fs →
    (fs.map (·.1)).Sublist ms.names
  | .nil, acc, fs, h => by
    simp only [FieldsOf] at h
    subst h
    exact List.Sublist.refl _
  | .cons name version condition t rest, acc, fs, h => by
    rw [FieldsOf.eq_def] at h
    simp only at h
    rcases h with ⟨_, _, hr⟩ | ⟨_, v, fs', rfl, _, hr⟩
    · exact (fields_sublist ctx rest acc fs hr).cons _
    · exact (fields_sublist ctx rest _ fs' hr).cons_cons _

theorem isMargin_struct (sn : String) (ms : DMembers) (h : sn ≠ "Margin") :
    isMargin (some (.struct sn ms)) = false := by
  unfold isMargin
  split
  · rename_i heq
    simp only [Option.some.injEq, DTy.struct.injEq] at heq
    exact absurd heq.1 h
  · rfl

/-! ### Members that are there -/

theorem wanted_true (ctx : DCtx) (ver : Version) (hv : ctx.version = some ver) (acc : Fields)
    (version condition) (h : MemberThere ctx acc version condition) :
    memberWanted ctx acc version condition = .ok true := by
  obtain ⟨h1, h2⟩ := h
  rw [hv] at h1
  unfold memberWanted
  cases condition with
  | none =>
    cases version with
    | none => rfl
    | some m => simp [versionOk] at h1; simp [hv, h1]
  | some c =>
    have := h2 c rfl
    cases version with
    | none => simp [this]
    | some m => simp [versionOk] at h1; simp [hv, h1, this]

theorem wanted_false (ctx : DCtx) (ver : Version) (hv : ctx.version = some ver) (acc : Fields)
    (version condition) (h : MemberAbsent ctx acc version condition) :
    memberWanted ctx acc version condition = .ok false := by
  unfold MemberAbsent at h
  rw [hv] at h
  unfold memberWanted
  cases version with
  | none =>
    rcases h with h | ⟨c, rfl, h⟩
    · simp [versionOk] at h
    · simp [h]
  | some m =>
    simp only [hv]
    rcases h with h | ⟨c, rfl, h⟩
    · simp [versionOk] at h
      simp [h]
    · split <;> simp [h]

/-! ### Attributes of Python types -/

theorem attributeName_shows (env : XmlEnv) (k : String) :
    AllShow env (untypedItems env [("attribute-name", .leaf (.str (lit k)))])
      ([(lit "attribute-name", lit k)], []) := by
  simp only [untypedItems]
  refine ⟨([(lit "attribute-name", lit k)], []), ([], []), ?_, rfl, by simp⟩
  refine ⟨fun h => ?_, fun _ => ⟨?_, rfl⟩⟩
  · simp [AItem.complex, isComplexType, pyType] at h
  · simp [expand, pyType, xmlattrval]

theorem untypedItems_names (env : XmlEnv) (fs : Fields) :
    (untypedItems env fs).map (·.name) = fs.map (·.1) := by
  induction fs with
  | nil => simp [untypedItems]
  | cons p fs ih =>
    obtain ⟨k, v⟩ := p
    simp [untypedItems, ih]

/-! ### Names of attributes -/

mutual
theorem showTy_names (env : XmlEnv) (ctx : DCtx) (k : String) : ∀ (t : DTy) (acc : Fields) (v : Value PVal),
    Shaped ctx t acc v → clearTy t = true →
    ((showTy env ctx k t acc v).1.map (·.1)).Sublist (attrNames k t)
  | .prim p, acc, v, h, hc => by
    cases v with
    | leaf x => simp [showTy, attrNames]
    | _ => simp [Shaped] at h
  | .flags f, acc, v, h, hc => by
    cases v with
    | leaf x =>
      cases x with
      | flags g n =>
        have : (showTy env ctx k (.flags f) acc (.leaf (.flags g n))).1.map (·.1) =
            attrNames k (.flags f) := by
          simp only [showTy, showFlags, attrNames, List.map_cons, List.map_map]
          rfl
        rw [this]
        exact List.Sublist.refl _
      | _ => simp [Shaped] at h
    | _ => simp [Shaped] at h
  | .struct sn ms, acc, v, h, hc => by
    cases v with
    | struct fs =>
      simp only [Shaped] at h
      simp only [clearTy] at hc
      by_cases hs : sn = "Margin"
      · rw [if_pos hs] at hc
        have hm := (margin_fields ctx ms _ _ _ hc h).1
        simp only [showTy, attrNames, if_pos hs, showMargin, List.map_map]
        rw [← hm, List.map_map]
        exact List.Sublist.refl _
      · simp [showTy, hs]
    | _ => simp [Shaped] at h
  | .array t n, acc, v, h, hc => by
    cases v with
    | tuple xs =>
      simp only [showTy, attrNames]
      unfold showItems itemsAreElems
      split <;> simp_all
    | _ => simp [Shaped] at h
  | .nArray c t, acc, v, h, hc => by
    cases v with
    | list xs =>
      simp only [showTy, attrNames]
      unfold showItems itemsAreElems
      split <;> simp_all
    | _ => simp [Shaped] at h
  | .xArray t ref, acc, v, h, hc => by
    cases v with
    | list xs =>
      simp only [showTy, attrNames]
      unfold showItems itemsAreElems
      split <;> simp_all
    | _ => simp [Shaped] at h
  | .selective ref ss, acc, v, h, hc => by
    simp only [Shaped] at h
    obtain ⟨n, h1, h2⟩ := h
    simp only [showTy, h1, attrNames]
    simp only [clearTy] at hc
    exact showSels_names env ctx k ss n acc v h2 hc
theorem showSels_names (env : XmlEnv) (ctx : DCtx) (k : String) : ∀ (ss : DSels) (n : Int) (acc : Fields)
    (v : Value PVal), Selected ctx ss n acc v → clearSels ss = true →
    ((showSels env ctx k ss n acc v).1.map (·.1)).Sublist (selAttrNames k ss)
  | .nil, n, acc, v, h, hc => by simp [showSels]
  | .cons key t rest, n, acc, v, h, hc => by
    simp only [Selected] at h
    simp only [clearSels, Bool.and_eq_true] at hc
    simp only [showSels, selAttrNames]
    by_cases hn : n = key
    · rw [if_pos hn] at h ⊢
      exact (showTy_names env ctx k t acc v h hc.1.2).trans (List.sublist_append_left _ _)
    · rw [if_neg hn] at h ⊢
      exact (showSels_names env ctx k rest n acc v h hc.2).trans (List.sublist_append_right _ _)
end

theorem showMembers_skip (env : XmlEnv) (ctx : DCtx) (name : String) (version condition t rest)
    (acc fs : Fields) (h : name ∉ fs.map (·.1)) (hf : FieldsOf ctx rest acc fs) :
    showMembers env ctx (.cons name version condition t rest) acc fs = showMembers env ctx rest acc fs := by
  cases fs with
  | nil =>
    rw [showMembers]
    cases rest <;> rw [showMembers]
  | cons p fs =>
    obtain ⟨n, v⟩ := p
    simp only [List.map_cons, List.mem_cons, not_or] at h
    simp only [showMembers]
    rw [if_neg (fun e => h.1 e.symm)]

theorem showMembers_names (env : XmlEnv) (ctx : DCtx) : ∀ (ms : DMembers) (acc fs : Fields),
    FieldsOf ctx ms acc fs → clearMembers ms = true → ms.names.Nodup →
    ((showMembers env ctx ms acc fs).1.map (·.1)).Sublist (membersAttrNames ms)
  | .nil, acc, fs, h, hc, hn => by simp [showMembers]
  | .cons name version condition t rest, acc, fs, h, hc, hn => by
    rw [FieldsOf.eq_def] at h
    simp only at h
    simp only [clearMembers, Bool.and_eq_true] at hc
    simp only [DMembers.names, List.nodup_cons] at hn
    simp only [membersAttrNames]
    rcases h with ⟨_, _, hr⟩ | ⟨_, v, fs', rfl, hs, hr⟩
    · have hni : name ∉ fs.map (·.1) := fun hm => hn.1 ((fields_sublist ctx rest acc fs hr).subset hm)
      rw [showMembers_skip env ctx name version condition t rest acc fs hni hr]
      exact (showMembers_names env ctx rest acc fs hr hc.2 hn.2).trans (List.sublist_append_right _ _)
    · simp only [showMembers, if_true, List.map_append]
      exact List.Sublist.append (showTy_names env ctx name t acc v hs hc.1)
        (showMembers_names env ctx rest _ fs' hr hc.2 hn.2)

/-! ### Elements -/

theorem colorItem_show (name : String) (v : Value PVal) (n : Int) (h : v = .leaf (.int n)) :
    colorItem name v = .ofList (colorElem name v) := by
  subst h
  simp only [colorItem, intOf, colorElem, elem, colorref_str]
  rw [bitGroupInt_eq 0 n (by omega), bitGroupInt_eq 8 n (by omega), bitGroupInt_eq 16 n (by omega),
    bitGroupInt_eq 24 n (by omega)]
  simp only [decimal_nat]
  have e : ∀ k ∈ [lit "r", lit "g", lit "b", lit "alpha", lit "hex"],
      (k.map fun c => if c = 0x5F then 0x2D else c) = k := by decide +kernel
  simp only [List.mem_cons, forall_eq_or_imp] at e
  obtain ⟨e1, e2, e3, e4, e5, _⟩ := e
  simp [hyphens, e1, e2, e3, e4, e5]

theorem pick_struct : ∀ (ss : DSels) (n : Int), clearSels ss = true →
    ∃ sn ms, ss.pick n = .struct sn ms ∧ sn ≠ "Margin"
  | .nil, n, _ => ⟨"Struct", .nil, rfl, by decide⟩
  | .cons key t rest, n, hc => by
    simp only [clearSels, Bool.and_eq_true] at hc
    simp only [DSels.pick]
    split
    · cases t with
      | struct sn ms => exact ⟨sn, ms, rfl, by simpa using hc.1.1⟩
      | _ => simp at hc
    · exact pick_struct rest n hc.2

mutual
/-- A member that is no dependent type. -/
theorem shows_ty (env : XmlEnv) (ctx : DCtx) (ver : Version) (hv : ctx.version = some ver) (k : String) :
    ∀ (t : DTy) (acc : Fields) (v : Value PVal), Shaped ctx t acc v → clearTy t = true →
    (∀ it ref, t ≠ .xArray it ref) → (∀ ref ss, t ≠ .selective ref ss) →
    ItemShows env ⟨k, some t, v, t.sub env ctx k v⟩ (showTy env ctx k t acc v)
  | .prim p, acc, v, h, hc, _, _ => by
    cases v with
    | leaf x =>
      refine ⟨fun hx => ?_, fun _ => ⟨?_, by simp [showTy]⟩⟩
      · simp [AItem.complex, isComplexType] at hx
      · simp only [showTy]
        exact expand_prim env k p x (by simpa [Shaped] using h)
    | _ => simp [Shaped] at h
  | .flags f, acc, v, h, hc, _, _ => by
    cases v with
    | leaf x =>
      cases x with
      | flags g n =>
        simp only [Shaped] at h
        obtain ⟨rfl, _⟩ := h
        refine ⟨fun hx => ?_, fun _ => ⟨?_, by simp [showTy]⟩⟩
        · simp [AItem.complex, isComplexType] at hx
        · simp only [showTy]
          exact expand_flags env k g n
      | _ => simp [Shaped] at h
    | _ => simp [Shaped] at h
  | .struct sn ms, acc, v, h, hc, _, _ => by
    cases v with
    | struct fs =>
      simp only [Shaped] at h
      simp only [clearTy] at hc
      by_cases hs : sn = "Margin"
      · subst hs
        rw [if_pos rfl] at hc
        have hm := margin_fields ctx ms _ _ _ hc h
        refine ⟨fun hx => ?_, fun _ => ⟨?_, by simp [showTy]⟩⟩
        · simp [AItem.complex, isMargin] at hx
        · simp only [showTy, if_true]
          exact expand_margin env k ms fs hm.1 hm.2
      · rw [if_neg hs] at hc
        simp only [Bool.and_eq_true, decide_eq_true_eq] at hc
        obtain ⟨⟨hc1, hc2⟩, hc3⟩ := hc
        have hn : ms.names.Nodup := (List.nodup_append.1 hc3).1
        have hna : "attribute-name" ∉ ms.names := fun hm =>
          (List.nodup_append.1 hc3).2.2 _ hm "attribute-name" (by simp) rfl
        have hnt : "<text>" ∉ ms.names := fun hm =>
          (List.nodup_append.1 hc3).2.2 _ hm "<text>" (by simp) rfl
        have hsub := fields_sublist ctx ms [] fs h
        have hfn : (fs.map (·.1)).Nodup := hn.sublist hsub
        have hfa : "attribute-name" ∉ fs.map (·.1) := fun hm => hna (hsub.subset hm)
        have hset := setField_new "attribute-name" (.leaf (.str (lit k))) fs hfa
        obtain ⟨items, e1, e2, e3⟩ := shows_members env ctx ver hv ms [] fs
          (fs ++ [("attribute-name", .leaf (.str (lit k)))]) h hc1 hn (by simp)
          (lookup_append_self fs _ hfn)
        have hrem : (fs ++ [("attribute-name", (.leaf (.str (lit k)) : Value PVal))]).filter
            (fun p => decide (p.1 ∉ fs.map (·.1))) = [("attribute-name", .leaf (.str (lit k)))] := by
          rw [List.filter_append]
          have : fs.filter (fun p => decide (p.1 ∉ fs.map (·.1))) = [] := by
            rw [List.filter_eq_nil_iff]
            intro p hp
            simp only [decide_eq_true_eq, not_not]
            exact List.mem_map_of_mem hp
          rw [this, List.filter_cons_of_pos (by simpa using hfa)]
          rfl
        rw [hrem] at e1
        have hall := e2.append env (attributeName_shows env k)
        refine ⟨fun _ => ⟨?_, by simp [showTy, hs]⟩, fun hx => ?_⟩
        · simp only [DTy.sub, hset, e1, withRemnants, bind, Except.bind, pure, Except.pure, showTy, if_neg hs]
          have := elementOf_show env (lit sn)
            (items ++ untypedItems env [("attribute-name", .leaf (.str (lit k)))]) _ hall ?_ ?_ ?_
          · simpa using this
          · rw [List.map_append, e3, untypedItems_names]
            simp only [List.map_cons, List.map_nil]
            rw [List.nodup_append]
            refine ⟨hfn, by simp, ?_⟩
            intro a ha b hb e
            simp only [List.mem_singleton] at hb
            exact hfa (by rw [← hb, ← e]; exact ha)
          · intro i hi e
            rcases List.mem_append.1 hi with hi | hi
            · have : i.name ∈ items.map (·.name) := List.mem_map_of_mem hi
              rw [e3, e] at this
              exact hnt (hsub.subset this)
            · have : i.name ∈ (untypedItems env [("attribute-name", .leaf (.str (lit k)))]).map (·.name) :=
                List.mem_map_of_mem hi
              rw [untypedItems_names, e] at this
              simp at this
          · have hsl := showMembers_names env ctx ms [] fs h hc1 hn
            refine hc2.sublist (List.Sublist.map _ ?_)
            simp only [List.map_append, List.map_cons, List.map_nil]
            exact List.Sublist.append hsl (List.Sublist.refl _)
        · simp [AItem.complex, isMargin_struct sn ms hs, isComplexType] at hx
    | _ => simp [Shaped] at h
  | .array t n, acc, v, h, hc, _, _ => by
    cases v with
    | tuple xs =>
      simp only [Shaped] at h
      simp only [clearTy] at hc
      simp only [showTy]
      by_cases he : itemsAreElems t = true
      · have := shows_items env ctx ver hv k t (.tuple xs) xs h.2 hc he
        refine ⟨fun _ => ⟨?_, this.2⟩, fun hx => ?_⟩
        · simp only [DTy.sub]
          exact this.1
        · unfold itemsAreElems at he
          split at he <;> simp_all [AItem.complex, isMargin, isComplexType]
      · have hx : showItems env ctx k t (.tuple xs) xs = ([(lit k, reprOf env (.tuple xs))], []) := by
          unfold showItems
          unfold itemsAreElems at he
          split <;> simp_all
        rw [hx]
        refine ⟨fun hx => ?_, fun _ => ⟨?_, rfl⟩⟩
        · unfold itemsAreElems at he
          simp only [AItem.complex, isMargin, Bool.not_false, Bool.true_and] at hx
          unfold isComplexType at hx
          split at hx <;> simp_all
        · simp [expand, xmlattrval, pyRepr_eq]
    | _ => simp [Shaped] at h
  | .nArray c t, acc, v, h, hc, _, _ => by
    cases v with
    | list xs =>
      simp only [Shaped] at h
      simp only [clearTy] at hc
      simp only [showTy]
      by_cases he : itemsAreElems t = true
      · have := shows_items env ctx ver hv k t (.list xs) xs h.2 hc he
        refine ⟨fun _ => ⟨?_, this.2⟩, fun hx => ?_⟩
        · simp only [DTy.sub]
          exact this.1
        · unfold itemsAreElems at he
          split at he <;> simp_all [AItem.complex, isMargin, isComplexType]
      · have hx : showItems env ctx k t (.list xs) xs = ([(lit k, reprOf env (.list xs))], []) := by
          unfold showItems
          unfold itemsAreElems at he
          split <;> simp_all
        rw [hx]
        refine ⟨fun hx => ?_, fun _ => ⟨?_, rfl⟩⟩
        · unfold itemsAreElems at he
          simp only [AItem.complex, isMargin, Bool.not_false, Bool.true_and] at hx
          unfold isComplexType at hx
          split at hx <;> simp_all
        · simp [expand, xmlattrval, pyRepr_eq]
    | _ => simp [Shaped] at h
  | .xArray it ref, _, _, _, _, h, _ => absurd rfl (h it ref)
  | .selective ref ss, _, _, _, _, _, h => absurd rfl (h ref ss)
/-- Items that are elements. -/
theorem shows_items (env : XmlEnv) (ctx : DCtx) (ver : Version) (hv : ctx.version = some ver) (k : String) :
    ∀ (t : DTy) (whole : Value PVal) (xs : List (Value PVal)), (∀ x ∈ xs, Shaped ctx t [] x) →
    clearItem t = true → itemsAreElems t = true →
    t.items env ctx k xs = .ofList (showItems env ctx k t whole xs).2 ∧
      (showItems env ctx k t whole xs).1 = []
  | .struct sn ms, whole, xs, h, hc, _ => by
    simp only [clearItem, Bool.and_eq_true, decide_eq_true_eq] at hc
    obtain ⟨⟨⟨_, hc1⟩, hc2⟩, hc3⟩ := hc
    have hn : ms.names.Nodup := (List.nodup_append.1 hc3).1
    have hnt : "<text>" ∉ ms.names := fun hm =>
      (List.nodup_append.1 hc3).2.2 _ hm "<text>" (by simp) rfl
    have key : ∀ x ∈ xs, elementOf env (lit sn) (withRemnants env (do ms.typed env ctx [] (← dictOf x))) =
        .ofList (elem (lit sn) (showMembers env ctx ms [] (fieldsOf x)).1
          (showMembers env ctx ms [] (fieldsOf x)).2) := by
      intro x hx
      have hs := h x hx
      cases x with
      | struct fs =>
        simp only [Shaped] at hs
        have hsub := fields_sublist ctx ms [] fs hs
        have hfn : (fs.map (·.1)).Nodup := hn.sublist hsub
        obtain ⟨items, e1, e2, e3⟩ := shows_members env ctx ver hv ms [] fs fs hs hc1 hn (by simp)
          (by simpa using lookup_append_self fs [] hfn)
        have hrem : fs.filter (fun p => decide (p.1 ∉ fs.map (·.1))) = [] := by
          rw [List.filter_eq_nil_iff]
          intro p hp
          simp only [decide_eq_true_eq, not_not]
          exact List.mem_map_of_mem hp
        rw [hrem] at e1
        simp only [dictOf, bind, Except.bind, e1, withRemnants, pure, Except.pure, untypedItems,
          List.append_nil, fieldsOf]
        refine elementOf_show env (lit sn) items _ e2 (by rw [e3]; exact hfn) ?_ ?_
        · intro i hi e
          have : i.name ∈ items.map (·.name) := List.mem_map_of_mem hi
          rw [e3, e] at this
          exact hnt (hsub.subset this)
        · exact hc2.sublist (List.Sublist.map _ (showMembers_names env ctx ms [] fs hs hc1 hn))
      | _ => simp [Shaped] at hs
    refine ⟨?_, by simp [showItems]⟩
    simp only [DTy.items, showItems, arrayElement]
    rw [List.map_congr_left key]
    have hch := Gen.chain_ofList (xs.map fun x => elem (lit sn)
      (showMembers env ctx ms [] (fieldsOf x)).1 (showMembers env ctx ms [] (fieldsOf x)).2)
    rw [List.map_map] at hch
    erw [hch]
    rw [Gen.andThen_ofList, Gen.cons_ofList, ← List.flatMap_def]
    rfl
  | .prim .colorref, whole, xs, h, hc, _ => by
    refine ⟨?_, by simp [showItems]⟩
    simp only [DTy.items, showItems]
    have key : ∀ x ∈ xs, colorItem k x = .ofList (colorElem k x) := by
      intro x hx
      have hs := h x hx
      cases x with
      | leaf y =>
        cases y with
        | int n => exact colorItem_show k _ n rfl
        | _ => simp [Shaped, PrimVal] at hs
      | _ => simp [Shaped] at hs
    rw [List.map_congr_left key]
    have hch := Gen.chain_ofList (xs.map (colorElem k))
    rw [List.map_map] at hch
    erw [hch]
    rw [← List.flatMap_def]
  | .prim (.int _), _, _, _, _, he => by simp [itemsAreElems] at he
  | .prim .double, _, _, _, _, he => by simp [itemsAreElems] at he
  | .prim (.hexBytes _), _, _, _, _, he => by simp [itemsAreElems] at he
  | .prim .bstr, _, _, _, _, he => by simp [itemsAreElems] at he
  | .prim .chid, _, _, _, _, he => by simp [itemsAreElems] at he
  | .prim .binStorageId, _, _, _, _, he => by simp [itemsAreElems] at he
  | .prim .chunks, _, _, _, _, he => by simp [itemsAreElems] at he
  | .prim .version, _, _, _, _, he => by simp [itemsAreElems] at he
  | .flags _, _, _, _, _, he => by simp [itemsAreElems] at he
  | .array _ _, _, _, _, _, he => by simp [itemsAreElems] at he
  | .nArray _ _, _, _, _, _, he => by simp [itemsAreElems] at he
  | .xArray _ _, _, _, _, _, he => by simp [itemsAreElems] at he
  | .selective _ _, _, _, _, _, he => by simp [itemsAreElems] at he
/-- A selected type. -/
theorem shows_sels (env : XmlEnv) (ctx : DCtx) (ver : Version) (hv : ctx.version = some ver) (k : String) :
    ∀ (ss : DSels) (n : Int) (acc : Fields) (v : Value PVal), Selected ctx ss n acc v →
    clearSels ss = true →
    ItemShows env ⟨k, some (ss.pick n), v, ss.sub env ctx k n v⟩ (showSels env ctx k ss n acc v)
  | .nil, n, acc, v, h, hc => by simp [Selected] at h
  | .cons key t rest, n, acc, v, h, hc => by
    simp only [Selected] at h
    simp only [clearSels, Bool.and_eq_true] at hc
    simp only [showSels, DSels.pick, DSels.sub]
    by_cases hn : n = key
    · rw [if_pos hn] at h
      simp only [if_pos hn]
      refine shows_ty env ctx ver hv k t acc v h hc.1.2 ?_ ?_
      · rintro it ref rfl
        simp at hc
      · rintro ref ss rfl
        simp at hc
    · rw [if_neg hn] at h
      simp only [if_neg hn]
      exact shows_sels env ctx ver hv k rest n acc v h hc.2
/-- Members. -/
theorem shows_members (env : XmlEnv) (ctx : DCtx) (ver : Version) (hv : ctx.version = some ver) :
    ∀ (ms : DMembers) (acc fs attrs : Fields), FieldsOf ctx ms acc fs → clearMembers ms = true →
    ms.names.Nodup → (∀ n ∈ ms.names, n ∉ acc.map (·.1)) →
    (∀ p ∈ fs, attrs.lookup p.1 = some p.2) →
    ∃ items, ms.typed env ctx acc attrs =
        .ok (items, attrs.filter fun p => decide (p.1 ∉ fs.map (·.1))) ∧
      AllShow env items (showMembers env ctx ms acc fs) ∧ items.map (·.name) = fs.map (·.1)
  | .nil, acc, fs, attrs, h, hc, hn, hd, hl => by
    simp only [FieldsOf] at h
    subst h
    refine ⟨[], ?_, ?_, rfl⟩
    · simp only [DMembers.typed, List.map_nil, List.not_mem_nil, not_false_eq_true, decide_true]
      rw [List.filter_eq_self.2 (fun _ _ => rfl)]
    · simp [AllShow, showMembers]
  | .cons name version condition t rest, acc, fs, attrs, h, hc, hn, hd, hl => by
    rw [FieldsOf.eq_def] at h
    simp only at h
    simp only [clearMembers, Bool.and_eq_true] at hc
    simp only [DMembers.names, List.nodup_cons] at hn
    rcases h with ⟨ha, hro, hr⟩ | ⟨ht, v, fs', rfl, hs, hr⟩
    · have hni : name ∉ fs.map (·.1) := fun hm => hn.1 ((fields_sublist ctx rest acc fs hr).subset hm)
      rw [showMembers_skip env ctx name version condition t rest acc fs hni hr]
      obtain ⟨items, e1, e2, e3⟩ := shows_members env ctx ver hv rest acc fs attrs hr hc.2 hn.2
        (fun n hm => hd n (by simp [DMembers.names, hm])) hl
      refine ⟨items, ?_, e2, e3⟩
      rw [← e1]
      have hw := wanted_false ctx ver hv acc version condition ha
      cases t with
      | xArray it ref =>
        simp only [RefOk] at hro
        obtain ⟨n, hn⟩ := hro
        simp only [DMembers.typed, hn, hw, bind, Except.bind, pure, Except.pure, Bool.false_eq_true, if_false]
      | selective ref ss =>
        simp only [RefOk] at hro
        obtain ⟨n, hn⟩ := hro
        simp only [DMembers.typed, hn, hw, bind, Except.bind, pure, Except.pure, Bool.false_eq_true, if_false]
      | _ => simp only [DMembers.typed, hw, bind, Except.bind, pure, Except.pure, Bool.false_eq_true, if_false]
    · have hw := wanted_true ctx ver hv acc version condition ht
      have hsub := fields_sublist ctx rest _ fs' hr
      have hnf : name ∉ fs'.map (·.1) := fun hm => hn.1 (hsub.subset hm)
      have hl1 : attrs.lookup name = some v := hl (name, v) (by simp)
      have hset : setField name v acc = acc ++ [(name, v)] :=
        setField_new name v acc (hd name (by simp [DMembers.names]))
      obtain ⟨items, e1, e2, e3⟩ := shows_members env ctx ver hv rest (acc ++ [(name, v)]) fs'
        (attrs.filter fun p => decide (p.1 ≠ name)) hr hc.2 hn.2
        (by
          intro n hm
          simp only [List.map_append, List.map_cons, List.map_nil, List.mem_append, List.mem_singleton, not_or]
          refine ⟨hd n (by simp [DMembers.names, hm]), ?_⟩
          rintro rfl
          exact hn.1 hm)
        (by
          intro p hp
          have hne : p.1 ≠ name := by
            intro e
            exact hnf (e ▸ List.mem_map_of_mem hp)
          rw [lookup_filter_ne _ _ hne]
          exact hl p (by simp [hp]))
      have hfil : (attrs.filter fun p => decide (p.1 ≠ name)).filter
          (fun p => decide (p.1 ∉ fs'.map (·.1))) =
          attrs.filter fun p => decide (p.1 ∉ ((name, v) :: fs').map (·.1)) := by
        rw [List.filter_filter]
        congr 1
        funext p
        by_cases h1 : p.1 = name <;> by_cases h2 : p.1 ∈ fs'.map (·.1) <;>
          simp only [List.map_cons, List.mem_cons, h1, h2, not_true_eq_false, not_false_eq_true,
            or_true, true_or, or_false, false_or, decide_true, decide_false, Bool.and_true, Bool.true_and,
            Bool.and_false, Bool.false_and, ne_eq]
      rw [hfil] at e1
      simp only [showMembers, if_true]
      have hpop : ∀ rt, popValue name rt attrs = (v, attrs.filter fun p => decide (p.1 ≠ name)) := by
        intro rt
        simp [popValue, hl1]
      cases t with
      | xArray it ref =>
        cases v with
        | list xs =>
          simp only [Shaped] at hs
          obtain ⟨⟨n, h1, h2⟩, h3⟩ := hs
          refine ⟨⟨name, some (.array it n.toNat), .list xs, it.items env ctx name xs⟩ :: items, ?_,
            ⟨_, _, ?_, e2, rfl⟩, by simp [e3]⟩
          · simp only [DMembers.typed, h1, hw, hpop, hset, e1, bind, Except.bind, pure, Except.pure, if_true]
          · simp only [clearTy] at hc
            simp only [showTy]
            by_cases he : itemsAreElems it = true
            · have := shows_items env ctx ver hv name it (.list xs) xs h3 hc.1 he
              refine ⟨fun _ => this, fun hx => ?_⟩
              unfold itemsAreElems at he
              split at he <;> simp_all [AItem.complex, isMargin, isComplexType]
            · have hx : showItems env ctx name it (.list xs) xs =
                  ([(lit name, reprOf env (.list xs))], []) := by
                unfold showItems
                unfold itemsAreElems at he
                split <;> simp_all
              rw [hx]
              refine ⟨fun hx => ?_, fun _ => ⟨?_, rfl⟩⟩
              · unfold itemsAreElems at he
                simp only [AItem.complex, isMargin, Bool.not_false, Bool.true_and] at hx
                unfold isComplexType at hx
                split at hx <;> simp_all
              · simp [expand, xmlattrval, pyRepr_eq]
        | _ => simp [Shaped] at hs
      | selective ref ss =>
        simp only [Shaped] at hs
        obtain ⟨n, h1, h2⟩ := hs
        simp only [clearTy] at hc
        have := shows_sels env ctx ver hv name ss n acc v h2 hc.1
        refine ⟨⟨name, some (ss.pick n), v, ss.sub env ctx name n v⟩ :: items, ?_,
          ⟨_, _, ?_, e2, rfl⟩, by simp [e3]⟩
        · simp only [DMembers.typed, h1, hw, hpop, hset, e1, bind, Except.bind, pure, Except.pure, if_true]
        · simp only [showTy, h1]
          exact this
      | prim p =>
        refine ⟨⟨name, some (.prim p), v, DTy.sub env ctx name (.prim p) v⟩ :: items, ?_,
          ⟨_, _, shows_ty env ctx ver hv name (.prim p) acc v hs hc.1 (by simp) (by simp), e2, rfl⟩, by simp [e3]⟩
        simp only [DMembers.typed, hw, hpop, hset, e1, bind, Except.bind, pure, Except.pure, if_true]
      | flags f =>
        refine ⟨⟨name, some (.flags f), v, DTy.sub env ctx name (.flags f) v⟩ :: items, ?_,
          ⟨_, _, shows_ty env ctx ver hv name (.flags f) acc v hs hc.1 (by simp) (by simp), e2, rfl⟩, by simp [e3]⟩
        simp only [DMembers.typed, hw, hpop, hset, e1, bind, Except.bind, pure, Except.pure, if_true]
      | struct sn ms =>
        refine ⟨⟨name, some (.struct sn ms), v, DTy.sub env ctx name (.struct sn ms) v⟩ :: items, ?_,
          ⟨_, _, shows_ty env ctx ver hv name (.struct sn ms) acc v hs hc.1 (by simp) (by simp), e2, rfl⟩, by simp [e3]⟩
        simp only [DMembers.typed, hw, hpop, hset, e1, bind, Except.bind, pure, Except.pure, if_true]
      | array it n =>
        refine ⟨⟨name, some (.array it n), v, DTy.sub env ctx name (.array it n) v⟩ :: items, ?_,
          ⟨_, _, shows_ty env ctx ver hv name (.array it n) acc v hs hc.1 (by simp) (by simp), e2, rfl⟩, by simp [e3]⟩
        simp only [DMembers.typed, hw, hpop, hset, e1, bind, Except.bind, pure, Except.pure, if_true]
      | nArray c it =>
        refine ⟨⟨name, some (.nArray c it), v, DTy.sub env ctx name (.nArray c it) v⟩ :: items, ?_,
          ⟨_, _, shows_ty env ctx ver hv name (.nArray c it) acc v hs hc.1 (by simp) (by simp), e2, rfl⟩, by simp [e3]⟩
        simp only [DMembers.typed, hw, hpop, hset, e1, bind, Except.bind, pure, Except.pure, if_true]
end

end Hwp
