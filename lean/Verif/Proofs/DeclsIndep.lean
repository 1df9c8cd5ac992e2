/- Declarations that do not look at the parent; names and nesting of the elements. -/
import Verif.Spec.Decls
import Verif.Proofs.XmlRecord
set_option linter.unusedSimpArgs false
set_option linter.unusedVariables false
namespace Hwp
open Spec

/-- Two dictionaries that agree except for `x`. -/
def Agree (x : String) (acc acc' : Fields) : Prop := ∀ n, n ≠ x → acc.lookup n = acc'.lookup n

theorem lookup_snoc {V} (k n : String) (v : V) (fs : List (String × V)) :
    (fs ++ [(n, v)]).lookup k = (fs.lookup k).or (if k = n then some v else none) := by
  induction fs with
  | nil =>
    by_cases h : k = n
    · simp [List.lookup, h]
    · have : (k == n) = false := beq_eq_false_iff_ne.2 h
      simp [List.lookup, h, this]
  | cons p fs ih =>
    simp only [List.cons_append, List.lookup]
    split <;> simp_all

theorem Agree.snoc {x : String} {acc acc' : Fields} (h : Agree x acc acc') (n : String) (v : Value PVal) :
    Agree x (acc ++ [(n, v)]) (acc' ++ [(n, v)]) := by
  intro k hk
  rw [lookup_snoc, lookup_snoc, h k hk]

theorem ref_indep {x : String} {ctx ctx' : DCtx} {acc acc' : Fields} (h : Agree x acc acc') (ref : RefDecl)
    (hr : refIndep x ref = true) : ref.eval ctx acc = ref.eval ctx' acc' := by
  cases ref with
  | parentMember n => simp [refIndep] at hr
  | member n => simp only [RefDecl.eval, getValue, h n (by simpa [refIndep] using hr)]
  | flag n b => simp only [RefDecl.eval, getValue, h n (by simpa [refIndep] using hr)]
  | flagMinusOne n b => simp only [RefDecl.eval, getValue, h n (by simpa [refIndep] using hr)]

theorem cond_indep {x : String} {ctx ctx' : DCtx} {acc acc' : Fields} (h : Agree x acc acc') (c : CondDecl)
    (hr : condIndep x c = true) : c.eval ctx acc = c.eval ctx' acc' := by
  cases c with
  | parentIsGso => simp [condIndep] at hr
  | flag n b => simp only [CondDecl.eval, getValue, h n (by simpa [condIndep] using hr)]
  | notFlag n b => simp only [CondDecl.eval, getValue, h n (by simpa [condIndep] using hr)]
  | chidIs c => simp only [CondDecl.eval, chidEq, getValue, h "chid" (by simpa [condIndep] using hr)]
  | chidIsAndFlag c n b =>
    simp only [condIndep, Bool.and_eq_true, decide_eq_true_eq] at hr
    simp only [CondDecl.eval, chidEq, getValue, h "chid" hr.1, h n hr.2]

theorem there_indep {x : String} {ctx ctx' : DCtx} {acc acc' : Fields} (h : Agree x acc acc')
    (hv : ctx.version = ctx'.version) (version : Option Version) (condition : Option CondDecl)
    (hc : condition.all (condIndep x) = true) :
    (MemberThere ctx acc version condition ↔ MemberThere ctx' acc' version condition) ∧
    (MemberAbsent ctx acc version condition ↔ MemberAbsent ctx' acc' version condition) := by
  unfold MemberThere MemberAbsent
  rw [hv]
  cases condition with
  | none => simp
  | some c =>
    have := cond_indep (ctx := ctx) (ctx' := ctx') h c (by simpa using hc)
    simp [this]

theorem refOk_indep {x : String} {ctx ctx' : DCtx} {acc acc' : Fields} (h : Agree x acc acc') (t : DTy)
    (ht : indepTy x t = true) : RefOk ctx acc t ↔ RefOk ctx' acc' t := by
  cases t with
  | xArray it ref =>
    simp only [indepTy, Bool.and_eq_true] at ht
    simp only [RefOk, ref_indep (ctx := ctx) (ctx' := ctx') h ref ht.1]
  | selective ref ss =>
    simp only [indepTy, Bool.and_eq_true] at ht
    simp only [RefOk, ref_indep (ctx := ctx) (ctx' := ctx') h ref ht.1]
  | _ => simp [RefOk]

mutual
/-- Shapes do not depend on what is not looked at. -/
theorem shaped_indep {ctx ctx' : DCtx} (hv : ctx.version = ctx'.version) : ∀ (x : String) (t : DTy)
    (acc acc' : Fields) (v : Value PVal), Agree x acc acc' → indepTy x t = true →
    (Shaped ctx t acc v ↔ Shaped ctx' t acc' v)
  | x, .prim p, acc, acc', v, h, ht => by cases v <;> simp [Shaped]
  | x, .flags f, acc, acc', v, h, ht => by
    cases v with
    | leaf y => cases y <;> simp [Shaped]
    | _ => simp [Shaped]
  | x, .struct sn ms, acc, acc', v, h, ht => by
    simp only [indepTy] at ht
    cases v with
    | struct fs =>
      simp only [Shaped]
      exact fields_indep hv "" ms [] [] fs (fun _ _ => rfl) ht
    | _ => simp [Shaped]
  | x, .array t n, acc, acc', v, h, ht => by
    simp only [indepTy] at ht
    cases v with
    | tuple xs =>
      simp only [Shaped]
      have : ∀ y, (Shaped ctx t [] y ↔ Shaped ctx' t [] y) := fun y =>
        shaped_indep hv x t [] [] y (fun _ _ => rfl) ht
      simp [this]
    | _ => simp [Shaped]
  | x, .nArray c t, acc, acc', v, h, ht => by
    simp only [indepTy] at ht
    cases v with
    | list xs =>
      simp only [Shaped]
      have : ∀ y, (Shaped ctx t [] y ↔ Shaped ctx' t [] y) := fun y =>
        shaped_indep hv x t [] [] y (fun _ _ => rfl) ht
      simp [this]
    | _ => simp [Shaped]
  | x, .xArray t ref, acc, acc', v, h, ht => by
    simp only [indepTy, Bool.and_eq_true] at ht
    cases v with
    | list xs =>
      simp only [Shaped]
      have : ∀ y, (Shaped ctx t [] y ↔ Shaped ctx' t [] y) := fun y =>
        shaped_indep hv "" t [] [] y (fun _ _ => rfl) ht.2
      simp [this, ref_indep (ctx := ctx) (ctx' := ctx') h ref ht.1]
    | _ => simp [Shaped]
  | x, .selective ref ss, acc, acc', v, h, ht => by
    simp only [indepTy, Bool.and_eq_true] at ht
    have : ∀ n, (Selected ctx ss n acc v ↔ Selected ctx' ss n acc' v) := fun n =>
      selected_indep hv x ss n acc acc' v h ht.2
    simp only [Shaped, ref_indep (ctx := ctx) (ctx' := ctx') h ref ht.1, this]
theorem fields_indep {ctx ctx' : DCtx} (hv : ctx.version = ctx'.version) : ∀ (x : String) (ms : DMembers)
    (acc acc' : Fields) (fs : Fields), Agree x acc acc' → indepMembers x ms = true →
    (FieldsOf ctx ms acc fs ↔ FieldsOf ctx' ms acc' fs)
  | x, .nil, acc, acc', fs, h, ht => by simp [FieldsOf]
  | x, .cons name version condition t rest, acc, acc', fs, h, ht => by
    simp only [indepMembers, Bool.and_eq_true] at ht
    obtain ⟨h1, h2⟩ := there_indep h hv version condition ht.1.1
    have h3 := refOk_indep (ctx := ctx) (ctx' := ctx') h t ht.1.2
    have h4 := fields_indep hv x rest acc acc' fs h ht.2
    have h5 : ∀ v, (Shaped ctx t acc v ↔ Shaped ctx' t acc' v) := fun v =>
      shaped_indep hv x t acc acc' v h ht.1.2
    have h6 : ∀ v fs', (FieldsOf ctx rest (acc ++ [(name, v)]) fs' ↔
        FieldsOf ctx' rest (acc' ++ [(name, v)]) fs') := fun v fs' =>
      fields_indep hv x rest _ _ fs' (h.snoc name v) ht.2
    simp only [FieldsOf, h1, h2, h3, h4, h5, h6]
theorem selected_indep {ctx ctx' : DCtx} (hv : ctx.version = ctx'.version) : ∀ (x : String) (ss : DSels)
    (n : Int) (acc acc' : Fields) (v : Value PVal), Agree x acc acc' → indepSels x ss = true →
    (Selected ctx ss n acc v ↔ Selected ctx' ss n acc' v)
  | x, .nil, n, acc, acc', v, h, ht => by simp [Selected]
  | x, .cons k t rest, n, acc, acc', v, h, ht => by
    simp only [indepSels, Bool.and_eq_true] at ht
    simp only [Selected, shaped_indep hv x t acc acc' v h ht.1, selected_indep hv x rest n acc acc' v h ht.2]
end

/-! ### Nesting -/

theorem kids_nil : Kids [] := fun _ _ _ h => h

theorem kids_append {a b : List XEv} (ha : Kids a) (hb : Kids b) : Kids (a ++ b) := by
  intro top st r h
  rw [List.append_assoc]
  exact ha top st _ (hb top st r h)

theorem kids_elem {n : PyStr} {as : List (PyStr × PyStr)} {kids : List XEv} (h : Kids kids) :
    Kids (elem n as kids) := by
  intro top st r hr
  simp only [elem, List.cons_append, List.append_assoc, List.nil_append, Inside]
  apply h
  simp only [Inside]
  exact ⟨trivial, hr⟩

theorem kids_flatMap {α} {f : α → List XEv} : ∀ (xs : List α), (∀ x ∈ xs, Kids (f x)) → Kids (xs.flatMap f)
  | [], _ => kids_nil
  | x :: xs, h => by
    rw [List.flatMap_cons]
    exact kids_append (h x (by simp)) (kids_flatMap xs (fun y hy => h y (by simp [hy])))

/-- Nested, with valid names. -/
def Neat (evs : List XEv) : Prop := Kids evs ∧ ∀ e ∈ evs, NamesOk e

theorem neat_nil : Neat [] := ⟨kids_nil, by simp⟩

theorem neat_append {a b : List XEv} (ha : Neat a) (hb : Neat b) : Neat (a ++ b) := by
  refine ⟨kids_append ha.1 hb.1, ?_⟩
  intro e he
  rcases List.mem_append.1 he with he | he
  · exact ha.2 e he
  · exact hb.2 e he

theorem neat_flatMap {α} {f : α → List XEv} (xs : List α) (h : ∀ x ∈ xs, Neat (f x)) : Neat (xs.flatMap f) := by
  refine ⟨kids_flatMap xs (fun x hx => (h x hx).1), ?_⟩
  intro e he
  obtain ⟨x, hx, he⟩ := List.mem_flatMap.1 he
  exact (h x hx).2 e he

theorem hyphens_names (as : List (PyStr × PyStr)) : (hyphens as).map (·.1) = (as.map (·.1)).map hyphen := by
  simp only [hyphens, List.map_map]
  rfl

theorem neat_elem {n : PyStr} {as : List (PyStr × PyStr)} {kids : List XEv} (hn : ValidName n)
    (hd : ((as.map (·.1)).map hyphen).Nodup) (hv : ∀ k ∈ as.map (·.1), ValidName (hyphen k)) (h : Neat kids) :
    Neat (elem n as kids) := by
  refine ⟨kids_elem h.1, ?_⟩
  intro e he
  simp only [elem, List.mem_cons, List.mem_append, List.not_mem_nil, or_false] at he
  rcases he with rfl | he | rfl
  · refine ⟨hn, by rw [hyphens_names]; exact hd, ?_⟩
    intro a ha
    have : a.1 ∈ (hyphens as).map (·.1) := List.mem_map_of_mem ha
    rw [hyphens_names] at this
    obtain ⟨k, hk, e⟩ := List.mem_map.1 this
    rw [← e]
    exact hv k hk
  · exact h.2 e he
  · exact hn

/-- Valid attribute names. -/
theorem named_attrs (k : String) : ∀ (t : DTy), namedTy k t = true → ∀ n ∈ attrNames k t, ValidName (hyphen n)
  | .prim p, h, n, hn => by
    simp only [attrNames, List.mem_singleton] at hn
    subst hn
    simpa [namedTy, attrNameOk] using h
  | .flags f, h, n, hn => by
    simp only [namedTy, Bool.and_eq_true, List.all_eq_true] at h
    simp only [attrNames, List.mem_cons, List.mem_map] at hn
    rcases hn with rfl | ⟨b, hb, rfl⟩
    · simpa [attrNameOk] using h.1
    · simpa [attrNameOk] using h.2 b hb
  | .struct sn ms, h, n, hn => by
    simp only [attrNames] at hn
    simp only [namedTy] at h
    split at hn
    · rename_i hs
      rw [if_pos hs] at h
      simp only [List.all_eq_true] at h
      obtain ⟨p, hp, rfl⟩ := List.mem_map.1 hn
      simpa [attrNameOk] using h p hp
    · simp at hn
  | .array t _, h, n, hn => by
    simp only [namedTy] at h
    simp only [attrNames] at hn
    split at hn
    · simp at hn
    · rename_i he
      simp only [List.mem_singleton] at hn
      subst hn
      unfold namedItem at h
      unfold itemsAreElems at he
      split at h <;> simp_all [attrNameOk]
  | .nArray _ t, h, n, hn => by
    simp only [namedTy] at h
    simp only [attrNames] at hn
    split at hn
    · simp at hn
    · rename_i he
      simp only [List.mem_singleton] at hn
      subst hn
      unfold namedItem at h
      unfold itemsAreElems at he
      split at h <;> simp_all [attrNameOk]
  | .xArray t _, h, n, hn => by
    simp only [namedTy] at h
    simp only [attrNames] at hn
    split at hn
    · simp at hn
    · rename_i he
      simp only [List.mem_singleton] at hn
      subst hn
      unfold namedItem at h
      unfold itemsAreElems at he
      split at h <;> simp_all [attrNameOk]
  | .selective _ ss, h, n, hn => by
    simp only [namedTy] at h
    simp only [attrNames] at hn
    exact named_sels k ss h n hn
where
  named_sels (k : String) : ∀ (ss : DSels), namedSels k ss = true → ∀ n ∈ selAttrNames k ss, ValidName (hyphen n)
  | .nil, h, n, hn => by simp [selAttrNames] at hn
  | .cons _ t rest, h, n, hn => by
    simp only [namedSels, Bool.and_eq_true] at h
    simp only [selAttrNames, List.mem_append] at hn
    rcases hn with hn | hn
    · exact named_attrs k t h.1 n hn
    · exact named_sels k rest h.2 n hn

theorem named_members : ∀ (ms : DMembers), namedMembers ms = true →
    ∀ n ∈ membersAttrNames ms, ValidName (hyphen n)
  | .nil, h, n, hn => by simp [membersAttrNames] at hn
  | .cons name _ _ t rest, h, n, hn => by
    simp only [namedMembers, Bool.and_eq_true] at h
    simp only [membersAttrNames, List.mem_append] at hn
    rcases hn with hn | hn
    · exact named_attrs name t h.1 n hn
    · exact named_members rest h.2 n hn

theorem colorElem_neat (k : String) (h : ValidName (lit k)) (v : Value PVal) : Neat (colorElem k v) := by
  unfold colorElem
  split
  · refine neat_elem h ?_ ?_ neat_nil
    · simp only [List.map_cons, List.map_nil]
      decide +kernel
    · simp only [List.map_cons, List.map_nil]
      decide +kernel
  · exact neat_nil

mutual
theorem neat_ty (env : XmlEnv) (ctx : DCtx) (k : String) : ∀ (t : DTy) (acc : Fields) (v : Value PVal),
    Shaped ctx t acc v → clearTy t = true → namedTy k t = true → Neat (showTy env ctx k t acc v).2
  | .prim p, acc, v, h, hc, hn => by
    cases v with
    | leaf x => simp [showTy, neat_nil]
    | _ => simp [Shaped] at h
  | .flags f, acc, v, h, hc, hn => by
    cases v with
    | leaf x =>
      cases x with
      | flags g n => simp [showTy, neat_nil]
      | _ => simp [Shaped] at h
    | _ => simp [Shaped] at h
  | .struct sn ms, acc, v, h, hc, hn => by
    cases v with
    | struct fs =>
      simp only [Shaped] at h
      simp only [clearTy] at hc
      simp only [namedTy] at hn
      by_cases hs : sn = "Margin"
      · simp [showTy, hs, neat_nil]
      · rw [if_neg hs] at hc hn
        simp only [Bool.and_eq_true, decide_eq_true_eq] at hc hn
        obtain ⟨⟨hc1, hc2⟩, hc3⟩ := hc
        have hnd : ms.names.Nodup := (List.nodup_append.1 hc3).1
        have hsl := showMembers_names env ctx ms [] fs h hc1 hnd
        simp only [showTy, if_neg hs]
        refine neat_elem hn.1 ?_ ?_ (neat_members env ctx ms [] fs h hc1 hn.2 hnd)
        · refine hc2.sublist (List.Sublist.map _ ?_)
          simp only [List.map_append, List.map_cons, List.map_nil]
          exact List.Sublist.append hsl (List.Sublist.refl _)
        · intro n hm
          simp only [List.map_append, List.mem_append, List.map_cons, List.map_nil, List.mem_singleton] at hm
          rcases hm with hm | rfl
          · exact named_members ms hn.2 n (hsl.subset hm)
          · decide +kernel
    | _ => simp [Shaped] at h
  | .array t n, acc, v, h, hc, hn => by
    cases v with
    | tuple xs =>
      simp only [Shaped] at h
      simp only [showTy]
      exact neat_items env ctx k t _ xs h.2 (by simpa [clearTy] using hc) (by simpa [namedTy] using hn)
    | _ => simp [Shaped] at h
  | .nArray c t, acc, v, h, hc, hn => by
    cases v with
    | list xs =>
      simp only [Shaped] at h
      simp only [showTy]
      exact neat_items env ctx k t _ xs h.2 (by simpa [clearTy] using hc) (by simpa [namedTy] using hn)
    | _ => simp [Shaped] at h
  | .xArray t ref, acc, v, h, hc, hn => by
    cases v with
    | list xs =>
      simp only [Shaped] at h
      simp only [showTy]
      exact neat_items env ctx k t _ xs h.2 (by simpa [clearTy] using hc) (by simpa [namedTy] using hn)
    | _ => simp [Shaped] at h
  | .selective ref ss, acc, v, h, hc, hn => by
    simp only [Shaped] at h
    obtain ⟨n, h1, h2⟩ := h
    simp only [showTy, h1]
    exact neat_sels env ctx k ss n acc v h2 (by simpa [clearTy] using hc) (by simpa [namedTy] using hn)
theorem neat_items (env : XmlEnv) (ctx : DCtx) (k : String) : ∀ (t : DTy) (whole : Value PVal)
    (xs : List (Value PVal)), (∀ x ∈ xs, Shaped ctx t [] x) → clearItem t = true → namedItem k t = true →
    Neat (showItems env ctx k t whole xs).2
  | .struct sn ms, whole, xs, h, hc, hn => by
    simp only [clearItem, Bool.and_eq_true, decide_eq_true_eq] at hc
    simp only [namedItem, Bool.and_eq_true, decide_eq_true_eq] at hn
    obtain ⟨⟨⟨_, hc1⟩, hc2⟩, hc3⟩ := hc
    have hnd : ms.names.Nodup := (List.nodup_append.1 hc3).1
    simp only [showItems]
    refine neat_elem (by decide +kernel) (by simp only [List.map_cons, List.map_nil]; decide +kernel)
      (by simp only [List.map_cons, List.map_nil]; decide +kernel) (neat_flatMap xs ?_)
    intro x hx
    have hs := h x hx
    cases x with
    | struct fs =>
      simp only [Shaped] at hs
      simp only [fieldsOf]
      have hsl := showMembers_names env ctx ms [] fs hs hc1 hnd
      exact neat_elem hn.1 (hc2.sublist (List.Sublist.map _ hsl))
        (fun n hm => named_members ms hn.2 n (hsl.subset hm)) (neat_members env ctx ms [] fs hs hc1 hn.2 hnd)
    | _ => simp [Shaped] at hs
  | .prim .colorref, whole, xs, h, hc, hn => by
    simp only [showItems]
    exact neat_flatMap xs (fun x _ => colorElem_neat k (by simpa [namedItem] using hn) x)
  | .prim (.int _), _, _, _, _, _ => by simp [showItems, neat_nil]
  | .prim .double, _, _, _, _, _ => by simp [showItems, neat_nil]
  | .prim (.hexBytes _), _, _, _, _, _ => by simp [showItems, neat_nil]
  | .prim .bstr, _, _, _, _, _ => by simp [showItems, neat_nil]
  | .prim .chid, _, _, _, _, _ => by simp [showItems, neat_nil]
  | .prim .binStorageId, _, _, _, _, _ => by simp [showItems, neat_nil]
  | .prim .chunks, _, _, _, _, _ => by simp [showItems, neat_nil]
  | .prim .version, _, _, _, _, _ => by simp [showItems, neat_nil]
  | .flags _, _, _, _, _, _ => by simp [showItems, neat_nil]
  | .array _ _, _, _, _, _, _ => by simp [showItems, neat_nil]
  | .nArray _ _, _, _, _, _, _ => by simp [showItems, neat_nil]
  | .xArray _ _, _, _, _, _, _ => by simp [showItems, neat_nil]
  | .selective _ _, _, _, _, _, _ => by simp [showItems, neat_nil]
theorem neat_sels (env : XmlEnv) (ctx : DCtx) (k : String) : ∀ (ss : DSels) (n : Int) (acc : Fields)
    (v : Value PVal), Selected ctx ss n acc v → clearSels ss = true → namedSels k ss = true →
    Neat (showSels env ctx k ss n acc v).2
  | .nil, n, acc, v, h, hc, hn => by simp [Selected] at h
  | .cons key t rest, n, acc, v, h, hc, hn => by
    simp only [Selected] at h
    simp only [clearSels, Bool.and_eq_true] at hc
    simp only [namedSels, Bool.and_eq_true] at hn
    simp only [showSels]
    by_cases e : n = key
    · rw [if_pos e] at h ⊢
      exact neat_ty env ctx k t acc v h hc.1.2 hn.1
    · rw [if_neg e] at h ⊢
      exact neat_sels env ctx k rest n acc v h hc.2 hn.2
theorem neat_members (env : XmlEnv) (ctx : DCtx) : ∀ (ms : DMembers) (acc fs : Fields),
    FieldsOf ctx ms acc fs → clearMembers ms = true → namedMembers ms = true → ms.names.Nodup →
    Neat (showMembers env ctx ms acc fs).2
  | .nil, acc, fs, h, hc, hn, hd => by simp [showMembers, neat_nil]
  | .cons name version condition t rest, acc, fs, h, hc, hn, hd => by
    rw [FieldsOf.eq_def] at h
    simp only at h
    simp only [clearMembers, Bool.and_eq_true] at hc
    simp only [namedMembers, Bool.and_eq_true] at hn
    simp only [DMembers.names, List.nodup_cons] at hd
    rcases h with ⟨_, _, hr⟩ | ⟨_, v, fs', rfl, hs, hr⟩
    · have hni : name ∉ fs.map (·.1) := fun hm => hd.1 ((fields_sublist ctx rest acc fs hr).subset hm)
      rw [showMembers_skip env ctx name version condition t rest acc fs hni hr]
      exact neat_members env ctx rest acc fs hr hc.2 hn.2 hd.2
    · simp only [showMembers, if_true]
      exact neat_append (neat_ty env ctx name t acc v hs hc.1 hn.1)
        (neat_members env ctx rest _ fs' hr hc.2 hn.2 hd.2)
end

theorem neat_parts (env : XmlEnv) (ctx : DCtx) : ∀ (mss : List DMembers) (parts : List Fields),
    PartsOf ctx mss parts → mss.all clearMembers = true → mss.all namedMembers = true →
    (mss.flatMap DMembers.names).Nodup → Neat (showParts env ctx mss parts).2
  | [], [], _, _, _, _ => by simp [showParts, neat_nil]
  | ms :: mss, fs :: fss, h, hc, hn, hd => by
    simp only [PartsOf] at h
    simp only [List.all_cons, Bool.and_eq_true] at hc hn
    simp only [List.flatMap_cons, List.nodup_append] at hd
    simp only [showParts]
    exact neat_append (neat_members env ctx ms [] fs h.1 hc.1 hn.1 hd.1)
      (neat_parts env ctx mss fss h.2 hc.2 hn.2 hd.2.1)
  | [], _ :: _, h, _, _, _ => by simp [PartsOf] at h
  | _ :: _, [], h, _, _, _ => by simp [PartsOf] at h

end Hwp
