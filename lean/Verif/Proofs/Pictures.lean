/-
The pictures of the conversions to HTML and ODT.
-/
import Verif.Proofs.PagesDoc
import Verif.Proofs.Package
import Verif.Spec.Pictures
import Mathlib.Data.List.Forall2
set_option linter.unusedSimpArgs false
set_option linter.unusedVariables false
set_option autoImplicit false
namespace Hwp
open Spec

/-! ### In view and out of view -/

theorem flatMap_append_perm {α β : Type} (f g : α → List β) (ms : List α) :
    (ms.flatMap fun m => f m ++ g m).Perm (ms.flatMap f ++ ms.flatMap g) := by
  induction ms with
  | nil => exact .refl _
  | cons m ms ih =>
    simp only [List.flatMap_cons, List.append_assoc]
    refine .append_left _ ?_
    refine (ih.append_left _).trans ?_
    rw [← List.append_assoc, ← List.append_assoc]
    exact List.perm_append_comm.append_right _

theorem act_ways {M : Type} (a : Act M) : a.ways = actWays a := by cases a <;> rfl

theorem flatMap_if_length {α β : Type} (q : α → Bool) (x : β) (ms : List α) :
    ms.flatMap (fun m => if q m then [x] else []) = List.replicate ((ms.filter q).length) x := by
  induction ms with
  | nil => rfl
  | cons m ms ih => by_cases h : q m <;> simp [h, ih, List.replicate_succ]

theorem walkPictures_all {M P : Type} {s : Sheet M} {v : Places P} {ways : P → List M} (h : Agrees s v ways) (shows : M → Bool) (seen : P → Bool)
    (hs : ∀ p, ((ways p).filter shows).length = if seen p then 1 else 0) (T : Forest XNode) :
    ∀ p, ((ways p).flatMap (walkPictures s shows T) ++ hiddenPictures v seen T p).Perm (allPictures T) := by
  induction T with
  | nil =>
    intro p
    have : ∀ ms : List M, ms.flatMap (walkPictures s shows .nil) = [] := by
      intro ms; induction ms with
      | nil => rfl
      | cons m ms ih => simp [walkPictures, ih]
    rw [this]
    exact .refl _
  | node a cs sibs ih1 ih2 =>
    intro p
    cases a with
    | text t => exact ih2 p
    | elem n as =>
      simp only [walkPictures, hiddenPictures, allPictures]
      have e1 := flatMap_append_perm (fun m => (if n = lit "ShapePicture" ∧ shows m = true then [cs] else []) ++
        (s.rule m n as).ways.flatMap (walkPictures s shows cs)) (walkPictures s shows sibs) (ways p)
      have e2 := flatMap_append_perm (fun m => if n = lit "ShapePicture" ∧ shows m = true then [cs] else [])
        (fun m => (s.rule m n as).ways.flatMap (walkPictures s shows cs)) (ways p)
      have e3 : ((ways p).flatMap (fun m => if n = lit "ShapePicture" ∧ shows m = true then [cs] else [])) ++
          (if n = lit "ShapePicture" ∧ ¬ seen p = true then [cs] else []) = if n = lit "ShapePicture" then [cs] else [] := by
        by_cases hn : n = lit "ShapePicture"
        · simp only [hn, true_and, if_true]
          rw [flatMap_if_length, hs p]
          by_cases hp : seen p <;> simp [hp]
        · simp [hn]
      have key : ∀ V : List (Forest XNode), ((ways p).flatMap (fun m => (s.rule m n as).ways.flatMap (walkPictures s shows cs)) ++ V).Perm (allPictures cs) →
          ((ways p).flatMap (fun m => (if n = lit "ShapePicture" ∧ shows m = true then [cs] else []) ++
            (s.rule m n as).ways.flatMap (walkPictures s shows cs) ++ walkPictures s shows sibs m) ++
            ((if n = lit "ShapePicture" ∧ ¬ seen p = true then [cs] else []) ++ V ++ hiddenPictures v seen sibs p)).Perm
          ((if n = lit "ShapePicture" then [cs] else []) ++ allPictures cs ++ allPictures sibs) := by
        intro V e4
        rw [← e3]
        refine ((e1.trans (e2.append_right _)).append_right _).trans ?_
        refine .trans ?_ ((e4.append_left _).append (ih2 p))
        generalize (ways p).flatMap (fun m => if n = lit "ShapePicture" ∧ shows m = true then [cs] else []) = A
        generalize (if n = lit "ShapePicture" ∧ ¬ seen p = true then [cs] else []) = B
        generalize (ways p).flatMap (fun m => (s.rule m n as).ways.flatMap (walkPictures s shows cs)) = C
        generalize (ways p).flatMap (walkPictures s shows sibs) = D
        generalize hiddenPictures v seen sibs p = E
        simp only [List.append_assoc]
        refine .append_left _ ?_
        have h1 : (C ++ (D ++ (B ++ (V ++ E)))).Perm (C ++ (B ++ (V ++ (D ++ E)))) := by
          refine .append_left _ ?_
          rw [← List.append_assoc B V E, ← List.append_assoc D, ← List.append_assoc B V, ← List.append_assoc (B ++ V)]
          exact List.perm_append_comm.append_right _
        refine h1.trans ?_
        rw [← List.append_assoc, ← List.append_assoc B C]
        exact List.perm_append_comm.append_right _
      apply key
      have hv := h.view p n as
      have hw : (ways p).flatMap (fun m => (s.rule m n as).ways.flatMap (walkPictures s shows cs)) =
          ((ways p).flatMap fun m => actWays (s.rule m n as)).flatMap (walkPictures s shows cs) := by
        rw [List.flatMap_assoc]
        simp only [act_ways]
      rw [hw]
      cases hq : v.view p n as with
      | hidden => rw [hq] at hv; rw [hv.2]; exact .refl _
      | words => rw [hq] at hv; rw [hv.2]; exact .refl _
      | place q => rw [hq] at hv; rw [hv.2]; exact ih1 q

/-- Where pictures are seen in HTML. -/
theorem html_seen (p : HtmlSpot) : ((htmlWays p).filter htmlShows).length = if (p = .anything : Bool) then 1 else 0 := by cases p <;> rfl

/-- Where pictures are seen in ODT. -/
theorem odt_seen (p : OdtSpot) : ((odtWays p).filter odtShows).length = if (p = .picture : Bool) then 1 else 0 := by cases p <;> rfl

/-! ### Trees of models -/

/-- No start of an element of these names. -/
def Silent (kids : List XEv) : Prop := ∀ n as, .start n as ∈ kids → n ∉ loudNames

theorem heard_silent {env : XmlEnv} {m : ModelItem} {attrs : List (PyStr × PyStr)} {kids : List XEv} (h : Heard env m)
    (hs : startModel env m = .ofList (.start (lit m.model) attrs :: kids)) : Silent kids := by
  obtain ⟨attrs', kids', h1, h2⟩ := h
  have := ofList_injective (hs.symm.trans h1)
  simp only [List.cons.injEq] at this
  rw [this.2]
  intro n as hn
  split at h2
  · rw [h2] at hn
    split at hn <;> simp at hn
  · exact h2 _ hn

/-- The nodes of the elements of models. -/
def Shown (env : XmlEnv) : Forest ModelItem → Forest XNode → Prop
  | .nil, T => T = .nil
  | .node m cs sibs, T => ∃ p attrs kids K C S, startModel env (withId p m) = .ofList (.start (lit m.model) attrs :: kids) ∧ Silent kids ∧ Kids kids ∧
      BalX (joined kids) K ∧ Shown env cs C ∧ Shown env sibs S ∧
      T = .node (.elem (lit m.model) (attrs.map fun a => (a.1, noNul a.2))) (K.append C) S

theorem shown_forest (env : XmlEnv) (G : Forest ModelItem) : ∀ (pre : List (Ev ModelItem)) (Y : List XEv),
    (∀ a, .start a ∈ eventsOf G → IdShows env a ∧ IdHeard env a) → XmlOf env (numberedFrom pre (eventsOf G)) Y →
    ∃ T, BalX (joined Y) T ∧ Shown env G T ∧ ∀ t r, joined Y ≠ .text t :: r := by
  induction G with
  | nil =>
    intro pre Y _ hY
    cases hY
    exact ⟨.nil, .nil, rfl, by simp [joined]⟩
  | node m cs sibs ih1 ih2 =>
    intro pre Y hs hY
    simp only [eventsOf, numberedFrom, numberedFrom_append] at hY
    cases hY with
    | cons h1 h2 =>
      obtain ⟨Z, z, rfl, hZ, hz⟩ := xmlOf_split _ h2
      cases hz with
      | cons h3 h4 =>
        obtain ⟨C, hC, hC', hn⟩ := ih1 _ Z (fun a ha => hs a (by simp [eventsOf, ha])) hZ
        obtain ⟨S, hS, hS', -⟩ := ih2 _ _ (fun a ha => hs a (by simp [eventsOf, ha])) h4
        have hone : ∀ a, Ev.start a ∈ [Ev.start m] → IdShows env a ∧ IdHeard env a := by
          intro a ha
          simp only [List.mem_singleton, Ev.start.injEq] at ha
          subst ha
          exact hs _ (by simp [eventsOf])
        have h0 := numbered_shows env [.start m] pre (fun a ha => (hone a ha).1) (withId pre m) (by simp [numberedFrom])
        have h0' := numbered_heard env [.start m] pre (fun a ha => (hone a ha).2) (withId pre m) (by simp [numberedFrom])
        obtain ⟨attrs, kids, hst, -, hkids, -⟩ := h0
        have hsil := heard_silent h0' hst
        obtain rfl := ofList_injective (h1.symm.trans hst)
        obtain rfl := ofList_injective h3
        obtain ⟨K, hK⟩ := kids_bal hkids
        have hjoin : ∀ n r, XEv.start n attrs :: kids ++ (Z ++ ([XEv.stop n] ++ r)) = .start n attrs :: ((kids ++ Z) ++ .stop n :: r) := by
          intro n r; simp
        rw [withId_model] at *
        refine ⟨.node (.elem (lit m.model) (attrs.map fun a => (a.1, noNul a.2))) (K.append C) S, ?_,
          ⟨pre, attrs, kids, K, C, S, hst, hsil, hkids, hK, hC', hS', rfl⟩, ?_⟩
        · rw [hjoin, joined_element, joined_before _ _ hn]
          exact .elem (bal_append hK hC) hS
        · intro t r
          rw [hjoin, joined_element]
          simp

/-! ### The number of a picture -/

theorem pictureId_ref (T : Forest XNode) : pictureId T = refText T := by
  induction T with
  | nil => rfl
  | node a cs sibs _ ih =>
    cases a with
    | text t => simpa [pictureId, childrenNamed, refText] using ih
    | elem n as =>
      unfold pictureId at ih ⊢
      simp only [childrenNamed, refText]
      by_cases hn : n = lit "PictureInfo"
      · simp only [hn, if_true, List.singleton_append, List.find?_cons]
        have hb : (as.find? fun a => decide (a.1 = lit "bindata-id")) = as.find? fun a => a.1 == lit "bindata-id" := by
          congr 1; funext a; rw [Bool.eq_iff_iff]; simp
        rw [hb]
        cases hf : as.find? fun a => a.1 == lit "bindata-id" with
        | none =>
          have hne : ∀ a ∈ as, a.1 ≠ lit "bindata-id" := by simpa using hf
          have : (as.any fun a => a.1 == lit "bindata-id") = false := by
            rw [List.any_eq_false]; intro a ha; simpa using hne a ha
          simp only [this]
          exact ih
        | some a =>
          have : (as.any fun a => a.1 == lit "bindata-id") = true := by
            rw [List.any_eq_true]
            exact ⟨a, List.mem_of_find?_eq_some hf, List.find?_some (p := fun a : PyStr × PyStr => a.1 == lit "bindata-id") hf⟩
          simp only [this, attrValue, hf, Option.map_some, Option.getD_some]
      · simp only [hn, if_false, List.nil_append]
        exact ih

theorem bal_elem {n : PyStr} {as : List (PyStr × PyStr)} {k r : List XEv} {T : Forest XNode} (h : BalX (joined (elem n as k ++ r)) T)
    (hk : Kids k) (hr : Kids r) :
    ∃ K R, T = .node (.elem n ((hyphens as).map fun a => (a.1, noNul a.2))) K R ∧ BalX (joined r) R ∧ BalX (joined k) K := by
  obtain ⟨K, hK⟩ := kids_bal hk
  obtain ⟨R, hR⟩ := kids_bal hr
  have e : elem n as k ++ r = .start n (hyphens as) :: (k ++ .stop n :: r) := by simp [elem]
  rw [e, joined_element] at h
  exact ⟨K, R, bal_unique h (.elem hK hR), hR, hK⟩

/-- The first of the fields is a struct: its element is the first. -/
theorem struct_step (env : XmlEnv) (ctx : DCtx) (name sn : String) (ms rest : DMembers) (acc fs : Fields) (hs : sn ≠ "Margin")
    (hf : FieldsOf ctx (.cons name none none (.struct sn ms) rest) acc fs)
    (hc : clearMembers (.cons name none none (.struct sn ms) rest) = true) (hn : namedMembers (.cons name none none (.struct sn ms) rest) = true)
    (hd : (DMembers.cons name none none (.struct sn ms) rest).names.Nodup) (T : Forest XNode)
    (hT : BalX (joined (showMembers env ctx (.cons name none none (.struct sn ms) rest) acc fs).2) T) :
    ∃ gs fs' K R, fs = (name, .struct gs) :: fs' ∧ FieldsOf ctx ms [] gs ∧ FieldsOf ctx rest (acc ++ [(name, .struct gs)]) fs' ∧
      T = .node (.elem (lit sn) ((hyphens ((showMembers env ctx ms [] gs).1 ++ [(lit "attribute-name", lit name)])).map fun a => (a.1, noNul a.2))) K R ∧
      BalX (joined (showMembers env ctx ms [] gs).2) K ∧
      BalX (joined (showMembers env ctx rest (acc ++ [(name, .struct gs)]) fs').2) R := by
  rw [fieldsOf_m] at hf
  obtain ⟨v, fs', rfl, hv, hr⟩ := hf
  cases v with
  | struct gs =>
    simp only [Shaped] at hv
    simp only [clearMembers, clearTy, if_neg hs, Bool.and_eq_true, decide_eq_true_eq] at hc
    simp only [namedMembers, namedTy, if_neg hs, Bool.and_eq_true, decide_eq_true_eq] at hn
    simp only [DMembers.names, List.nodup_cons] at hd
    have k1 := (neat_members env ctx ms [] gs hv hc.1.1.1 hn.1.2 (List.nodup_append.1 hc.1.2).1).1
    have k2 := (neat_members env ctx rest (acc ++ [(name, .struct gs)]) fs' hr hc.2 hn.2 hd.2).1
    simp only [showMembers, if_true, showTy, if_neg hs] at hT
    obtain ⟨K, R, h1, h2, h3⟩ := bal_elem hT k1 k2
    exact ⟨gs, fs', K, R, rfl, hv, hr, h1, h3, h2⟩
  | _ => simp [Shaped] at hv

theorem int_of_shaped {ctx : DCtx} {p : Prim} {acc : Fields} {v : Value PVal} (h : Shaped ctx (.prim (.int p)) acc v) :
    ∃ n, v = .leaf (.int n) ∧ InRange p n := by
  cases v with
  | leaf x => cases x <;> simp [Shaped, PrimVal] at h; exact ⟨_, rfl, h⟩
  | _ => simp [Shaped] at h

theorem margin_step (env : XmlEnv) (ctx : DCtx) (name : String) (rest : DMembers) (acc fs : Fields)
    (hf : FieldsOf ctx (.cons name none none Decl.Margin rest) acc fs) (T : Forest XNode)
    (hT : BalX (joined (showMembers env ctx (.cons name none none Decl.Margin rest) acc fs).2) T) :
    ∃ v fs', fs = (name, v) :: fs' ∧ FieldsOf ctx rest (acc ++ [(name, v)]) fs' ∧
      BalX (joined (showMembers env ctx rest (acc ++ [(name, v)]) fs').2) T := by
  rw [fieldsOf_m] at hf
  obtain ⟨v, fs', rfl, hv, hr⟩ := hf
  refine ⟨v, fs', rfl, hr, ?_⟩
  cases v with
  | struct g4 => simpa [showMembers, showTy, Decl.Margin, Decl.m] using hT
  | _ => simp [Decl.Margin, Shaped] at hv

theorem picture_ref (env : XmlEnv) (ctx : DCtx) (fs : Fields) (h : FieldsOf ctx Decl.ShapePicture [] fs) (T : Forest XNode)
    (hT : BalX (joined (showMembers env ctx Decl.ShapePicture [] fs).2) T) :
    ∃ n, pictureRef fs = some n ∧ InRange .UINT16 n ∧ ∀ C, refText (T.append C) = noNul (Spec.decimal n) := by
  have c1 : clearMembers Decl.ShapePicture = true := by decide +kernel
  have c2 : namedMembers Decl.ShapePicture = true := by decide +kernel
  have c3 : Decl.ShapePicture.names.Nodup := by decide +kernel
  obtain ⟨g1, fs, K1, R1, rfl, -, h1, rfl, -, hT⟩ := struct_step env ctx _ _ _ _ _ _ (by decide) h c1 c2 c3 T hT
  have c1 : clearMembers (.cons _ _ _ _ _) = true := (Bool.and_eq_true_iff.1 c1).2
  have c2 : namedMembers (.cons _ _ _ _ _) = true := (Bool.and_eq_true_iff.1 c2).2
  have c3 : (DMembers.cons _ _ _ _ _).names.Nodup := (List.nodup_cons.1 c3).2
  obtain ⟨g2, fs, K2, R2, rfl, -, h1, rfl, -, hT⟩ := struct_step env ctx _ _ _ _ _ _ (by decide) h1 c1 c2 c3 R1 hT
  have c1 : clearMembers (.cons _ _ _ _ _) = true := (Bool.and_eq_true_iff.1 c1).2
  have c2 : namedMembers (.cons _ _ _ _ _) = true := (Bool.and_eq_true_iff.1 c2).2
  have c3 : (DMembers.cons _ _ _ _ _).names.Nodup := (List.nodup_cons.1 c3).2
  obtain ⟨g3, fs, K3, R3, rfl, -, h1, rfl, -, hT⟩ := struct_step env ctx _ _ _ _ _ _ (by decide) h1 c1 c2 c3 R2 hT
  have c1 : clearMembers (.cons _ _ _ _ _) = true := (Bool.and_eq_true_iff.1 (Bool.and_eq_true_iff.1 c1).2).2
  have c2 : namedMembers (.cons _ _ _ _ _) = true := (Bool.and_eq_true_iff.1 (Bool.and_eq_true_iff.1 c2).2).2
  have c3 : (DMembers.cons _ _ _ _ _).names.Nodup := (List.nodup_cons.1 (List.nodup_cons.1 c3).2).2
  obtain ⟨v4, fs, rfl, h1, hT⟩ := margin_step env ctx _ _ _ _ h1 R3 hT
  obtain ⟨g5, fs, K5, R5, rfl, h5, h1, rfl, -, hT⟩ := struct_step env ctx _ _ _ _ _ _ (by decide) h1 c1 c2 c3 R3 hT
  simp only [Decl.m, fieldsOf_m] at h5
  obtain ⟨w1, _, rfl, i1, w2, _, rfl, i2, w3, _, rfl, i3, w4, _, rfl, i4, i5⟩ := h5
  rw [FieldsOf.eq_def] at i5
  simp only at i5
  subst i5
  obtain ⟨n1, rfl, -⟩ := int_of_shaped i1
  obtain ⟨n2, rfl, -⟩ := int_of_shaped i2
  obtain ⟨n3, rfl, -⟩ := int_of_shaped i3
  obtain ⟨n, rfl, hn⟩ := int_of_shaped i4
  refine ⟨n, ?_, hn, ?_⟩
  · simp [pictureRef, fieldOf]
  · intro C
    have ha : ∀ ctx, (hyphens ((showMembers env ctx (Decl.m "brightness" Decl.INT8 (Decl.m "contrast" Decl.INT8
          (Decl.m "effect" Decl.BYTE (Decl.m "bindata_id" Decl.UINT16 DMembers.nil)))) []
        [("brightness", .leaf (.int n1)), ("contrast", .leaf (.int n2)), ("effect", .leaf (.int n3)), ("bindata_id", .leaf (.int n))]).1 ++
        [(lit "attribute-name", lit "picture")])) =
        [(lit "brightness", Spec.decimal n1), (lit "contrast", Spec.decimal n2), (lit "effect", Spec.decimal n3), (lit "bindata-id", Spec.decimal n),
          (lit "attribute-name", lit "picture")] := by
      intro ctx; rfl
    rw [ha]
    simp only [Forest.append, refText, lit_eq, String.reduceEq, if_false, if_true]
    simp [lit_eq]

/-! ### Trees without some elements -/

theorem joined_start {kids : List XEv} {n : PyStr} {as : List (PyStr × PyStr)} (h : .start n as ∈ joined kids) : ∃ as', XEv.start n as' ∈ kids := by
  induction kids generalizing as with
  | nil => cases h
  | cons e kids ih =>
    cases e with
    | start m bs =>
      simp only [joined, List.mem_cons, XEv.start.injEq] at h
      rcases h with ⟨rfl, -⟩ | h
      · exact ⟨bs, by simp⟩
      · obtain ⟨as', h⟩ := ih h; exact ⟨as', by simp [h]⟩
    | stop m =>
      simp only [joined, List.mem_cons, reduceCtorEq, false_or] at h
      obtain ⟨as', h⟩ := ih h; exact ⟨as', by simp [h]⟩
    | text t =>
      have h' : .start n as ∈ joined kids := by
        simp only [joined] at h
        split at h
        · rename_i hj
          rw [hj]
          simpa using h
        · split at h
          · exact h
          · simpa using h
      obtain ⟨as', h⟩ := ih h'; exact ⟨as', by simp [h]⟩

theorem bal_every {X : List XEv} {T : Forest XNode} (h : BalX X T) (ok : PyStr → Bool) (hs : ∀ n as, .start n as ∈ X → ok n = true) :
    everyElem (fun n _ => ok n) T = true := by
  induction h with
  | nil => rfl
  | text _ ih => exact ih fun n as hn => hs n as (by simp [hn])
  | elem _ _ ih1 ih2 =>
    simp only [everyElem, Bool.and_eq_true]
    exact ⟨⟨hs _ _ List.mem_cons_self, ih1 fun n as hn => hs n as (by simp [hn])⟩, ih2 fun n as hn => hs n as (by simp [hn])⟩

/-- No elements of these names. -/
def QuietTree (K : Forest XNode) : Prop := everyElem (fun n _ => decide (n ∉ loudNames)) K = true

theorem silent_tree {kids : List XEv} {K : Forest XNode} (hK : BalX (joined kids) K) (hs : Silent kids) : QuietTree K := by
  refine bal_every hK (fun n => decide (n ∉ loudNames)) ?_
  intro n as hn
  obtain ⟨as', hn⟩ := joined_start hn
  simpa using hs n as' hn

theorem quiet_pictures {K : Forest XNode} (h : QuietTree K) : allPictures K = [] := by
  induction K with
  | nil => rfl
  | node a cs sibs ih1 ih2 =>
    cases a with
    | text t => exact ih2 h
    | elem n as =>
      simp only [QuietTree, everyElem, Bool.and_eq_true, decide_eq_true_eq] at h
      have hn : n ≠ lit "ShapePicture" := by rintro rfl; exact h.1.1 (by decide)
      simp only [allPictures, if_neg hn, ih1 h.1.2, ih2 h.2, List.nil_append]

theorem quiet_children {K : Forest XNode} (name : PyStr) (hl : name ∈ loudNames) (h : QuietTree K) : childrenNamed name K = [] := by
  induction K with
  | nil => rfl
  | node a cs sibs ih1 ih2 =>
    cases a with
    | text t => exact ih2 h
    | elem n as =>
      simp only [QuietTree, everyElem, Bool.and_eq_true, decide_eq_true_eq] at h
      have hn : n ≠ name := by rintro rfl; exact h.1.1 hl
      simp only [childrenNamed, if_neg hn, ih2 h.2, List.nil_append]

theorem allPictures_append (A B : Forest XNode) : allPictures (A.append B) = allPictures A ++ allPictures B := by
  induction A with
  | nil => rfl
  | node a cs sibs _ ih => cases a <;> simp [Forest.append, allPictures, ih]

theorem childrenNamed_append (name : PyStr) (A B : Forest XNode) : childrenNamed name (A.append B) = childrenNamed name A ++ childrenNamed name B := by
  induction A with
  | nil => rfl
  | node a cs sibs _ ih => cases a <;> simp [Forest.append, childrenNamed, ih]

/-! ### The pictures of models -/

/-- The number a picture refers to, as text. -/
def refStr (content : Fields) : PyStr :=
  match pictureRef content with
  | some n => noNul (Spec.decimal n)
  | none => []

/-- The picture of a model. -/
def modelPicture (m : ModelItem) : List PyStr := if m.model = "ShapePicture" then [refStr m.attributes] else []

/-- A picture shows what it refers to. -/
def PictureOk (env : XmlEnv) (m : ModelItem) : Prop :=
  m.model = "ShapePicture" → ∀ attrs kids K, startModel env m = .ofList (.start (lit m.model) attrs :: kids) → BalX (joined kids) K →
    ∀ C, refText (K.append C) = refStr m.attributes

theorem withId_picture (p : List (Ev ModelItem)) (m : ModelItem) (h : m.model = "ShapePicture") : withId p m = m := by
  unfold withId; rw [h]; rfl

theorem shown_pictures (env : XmlEnv) (G : Forest ModelItem) : ∀ T, Shown env G T → (∀ m, .start m ∈ eventsOf G → PictureOk env m) →
    (allPictures T).map refText = G.items.flatMap modelPicture := by
  induction G with
  | nil => intro T hT _; rw [hT]; rfl
  | node m cs sibs ih1 ih2 =>
    intro T hT hp
    obtain ⟨p, attrs, kids, K, C, S, hst, hsil, hkids, hK, hC, hS, rfl⟩ := hT
    simp only [allPictures, List.map_append, allPictures_append, quiet_pictures (silent_tree hK hsil), List.nil_append,
      Forest.items, List.flatMap_cons, List.flatMap_append]
    rw [ih1 C hC (fun m hm => hp m (by simp [eventsOf, hm])), ih2 S hS (fun m hm => hp m (by simp [eventsOf, hm])), List.append_assoc]
    congr 1
    unfold modelPicture
    by_cases hm : m.model = "ShapePicture"
    · rw [withId_picture _ _ hm] at hst
      have := hp m (by simp [eventsOf]) hm attrs kids K hst hK C
      simp [hm, this]
    · have : lit m.model ≠ lit "ShapePicture" := by rw [Ne, lit_eq]; exact hm
      simp [hm, this]

/-- The children of the element of a model. -/
theorem kidsOf_shown {env : XmlEnv} {m : ModelItem} {G : Forest ModelItem} {cs : Forest XNode} (h : KidsOf env m (eventsOf G) cs) (hh : IdHeard env m)
    (hs : ∀ a, .start a ∈ eventsOf G → IdShows env a ∧ IdHeard env a) : ∃ K C, cs = K.append C ∧ QuietTree K ∧ Shown env G C := by
  obtain ⟨p, p', attrs, kids, Z, h1, h2, h3, h4⟩ := h
  obtain ⟨C, hC, hC', hn⟩ := shown_forest env G p' Z hs h3
  obtain ⟨K, hK⟩ := kids_bal h2
  have h0 : Heard env (withId p m) := numbered_heard env [.start m] p (by
    intro a ha
    simp only [List.mem_singleton, Ev.start.injEq] at ha
    subst ha
    exact hh) _ (by simp [numberedFrom])
  have hsil := heard_silent h0 (by rw [withId_model]; exact h1)
  rw [joined_before _ _ hn] at h4
  exact ⟨K, C, bal_unique h4 (bal_append hK hC), silent_tree hK hsil, hC'⟩

/-! ### The pictures of records -/

theorem record_picture (env : XmlEnv) (ver : Version) (rd : ModelReader Fields) (hrd : ReadsDecls ver rd)
    (rs : Gen Record) (i : Nat) (m : PModel Fields) (hm : (parseModels rd rs).out[i]? = some m) :
    PictureOk env ⟨m.type, m.content, ⟨some ver, none⟩⟩ ∧ (m.type = "ShapePicture" → ∃ n, pictureRef m.content = some n ∧ InRange .UINT16 n) := by
  by_cases ht : ¬ m.type = "ShapePicture"
  · exact ⟨fun h => absurd h ht, fun h => absurd h ht⟩
  rw [Decidable.not_not] at ht
  obtain ⟨parts, plain, h1, h2, h3, -⟩ := Props.C71_element_of_record env ver rd hrd rs i m hm (by rw [ht]; decide) (.inl (by rw [ht]; decide)) []
    ⟨by simp, by simp, by simp, by simp⟩
  have hch : classChain m.type = [Decl.ShapePicture] := by rw [ht]; rfl
  rw [hch] at h1 h3
  obtain ⟨fs, rfl, hfs⟩ : ∃ fs, parts = [fs] ∧ FieldsOf ⟨some ver, none⟩ Decl.ShapePicture [] fs := by
    cases parts with
    | nil => simp [PartsOf] at h1
    | cons fs parts =>
      cases parts with
      | nil => exact ⟨fs, rfl, by simpa [PartsOf] using h1⟩
      | cons => simp [PartsOf] at h1
  have hcontent : m.content = fs := by
    rcases h2 with ⟨h2, -⟩ | ⟨h2, -⟩
    · rw [h2]; simp
    · rw [ht] at h2; exact absurd h2 (by decide)
  have hkids : (showParts env ⟨some ver, none⟩ [Decl.ShapePicture] [fs]).2 = (showMembers env ⟨some ver, none⟩ Decl.ShapePicture [] fs).2 := by
    simp [showParts]
  have c1 : clearMembers Decl.ShapePicture = true := by decide +kernel
  have c2 : namedMembers Decl.ShapePicture = true := by decide +kernel
  have c3 : Decl.ShapePicture.names.Nodup := by decide +kernel
  obtain ⟨T0, hT0⟩ := kids_bal (neat_members env ⟨some ver, none⟩ _ [] fs hfs c1 c2 c3).1
  obtain ⟨n, hn, hr, -⟩ := picture_ref env _ fs hfs T0 hT0
  refine ⟨?_, fun _ => ⟨n, by rw [hcontent]; exact hn, hr⟩⟩
  intro _ attrs kids K hs hK C
  rw [List.append_nil] at h3
  have := ofList_injective (hs.symm.trans h3)
  simp only [List.cons.injEq] at this
  rw [this.2, hkids] at hK
  obtain ⟨n', hn', -, hC⟩ := picture_ref env _ fs hfs K hK
  rw [hC C, refStr, hcontent, hn']

/-! ### The pictures of a section -/

/-- The picture of an item. -/
def itemPicture (ms : List (PModel Fields)) : Item → List PyStr
  | .other _ t =>
    match ms[t]? with
    | some m => if m.type = "ShapePicture" then [refStr m.content] else []
    | none => []
  | _ => []

theorem kept_picture (ms : List (PModel Fields)) (x : Item) : (keptItem x).flatMap (itemPicture ms) = itemPicture ms x := by
  cases x <;> simp [keptItem, itemPicture]

theorem itemOf_picture {ms : List (PModel Fields)} {i : Nat} {m : PModel Fields} (hm : ms[i]? = some m) :
    itemPicture ms (itemOf i m) = if m.type = "ShapePicture" then [refStr m.content] else [] := by
  by_cases ht : m.type = "ShapePicture"
  · have : ∃ c, itemOf i m = .other c i := by
      have h1 : isSubclass "ShapePicture" "ListHeader" = false := by decide +kernel
      have h2 : isSubclass "ShapePicture" "Field" = false := by decide +kernel
      have h3 : isSubclass "ShapePicture" "Control" = false := by decide +kernel
      unfold itemOf
      simp [ht, h1, h2, h3]
    obtain ⟨c, hc⟩ := this
    rw [hc, if_pos ht]
    simp [itemPicture, hm, ht]
  · rw [if_neg ht]
    exact itemOf_cases i m (fun a => itemPicture ms a = []) (fun _ => rfl) (fun _ => rfl) (fun _ => rfl) (fun _ => rfl) (fun _ => rfl) (fun _ => rfl)
      (fun _ => rfl) (fun _ => rfl) (fun _ => rfl) (fun _ => rfl) (fun _ => rfl)
      (fun _ => ⟨fun _ => rfl, fun _ => rfl, fun _ => rfl, fun _ => by simp [itemPicture, hm, ht]⟩)

theorem derived_picture (env : XmlEnv) (ver : Version) (rd : ModelReader Fields) (hrd : ReadsDecls ver rd) (rs : Gen Record)
    (a : Item) (h : Derived ((parseModels rd rs).out.mapIdx itemOf) a) :
    PictureOk env (concItem (parseModels rd rs).out ⟨some ver, none⟩ a) ∧
    modelPicture (concItem (parseModels rd rs).out ⟨some ver, none⟩ a) = itemPicture (parseModels rd rs).out a := by
  have hrec : a ∈ (parseModels rd rs).out.mapIdx itemOf → PictureOk env (concItem (parseModels rd rs).out ⟨some ver, none⟩ a) ∧
      modelPicture (concItem (parseModels rd rs).out ⟨some ver, none⟩ a) = itemPicture (parseModels rd rs).out a := by
    intro ha
    obtain ⟨i, m, hm, rfl⟩ := mem_items ha
    rw [concItem_itemOf hm, itemOf_picture hm]
    exact ⟨(record_picture env ver rd hrd rs i m hm).1, rfl⟩
  have hne : ∀ m : ModelItem, m.model ≠ "ShapePicture" → PictureOk env m ∧ modelPicture m = [] := fun m hm => ⟨fun e => absurd e hm, if_neg hm⟩
  cases a with
  | sectionDef o t =>
    obtain ⟨o', h'⟩ := h
    obtain ⟨i, m, hm, e⟩ := mem_items h'
    obtain ⟨h1, -, rfl⟩ := itemOf_sectionDef e.symm
    cases o <;> exact hne _ (by simp [concItem, recordItem, contentAt, hm, h1])
  | tableBody o t =>
    obtain ⟨o', h'⟩ := h
    obtain ⟨i, m, hm, e⟩ := mem_items h'
    obtain ⟨h1, -, rfl⟩ := itemOf_tableBody e.symm
    cases o <;> exact hne _ (by simp [concItem, recordItem, contentAt, hm, h1])
  | lineSeg l =>
    obtain ⟨o, k⟩ := l
    cases o <;> exact hne _ (by simp [concItem])
  | text s sh l => exact hne _ (by simp [concItem])
  | controlChar code kind sh => exact hne _ (by simp [concItem])
  | columnSet => exact hne _ (by simp [concItem])
  | tableRow => exact hne _ (by simp [concItem])
  | paraText c t => exact absurd h (by simp [Derived])
  | paraCharShape c t => exact absurd h (by simp [Derived])
  | paraLineSeg c t => exact absurd h (by simp [Derived])
  | paraRangeTag t => exact absurd h (by simp [Derived])
  | paragraph n t => exact hrec h
  | tableCell t => exact hrec h
  | listHeader c t => exact hrec h
  | field c t => exact hrec h
  | tableControl t => exact hrec h
  | gshapeControl t => exact hrec h
  | control c t => exact hrec h
  | shapeComponent t => exact hrec h
  | other c t => exact hrec h

theorem start_of_items {α : Type} (g : Forest α) (x : α) (h : x ∈ g.items) : Ev.start x ∈ eventsOf g := by
  induction g with
  | nil => cases h
  | node a cs sibs ih1 ih2 =>
    simp only [Forest.items, List.mem_cons, List.mem_append] at h
    rcases h with rfl | h | h
    · simp [eventsOf]
    · simp [eventsOf, ih1 h]
    · simp [eventsOf, ih2 h]

theorem flatMap_flatMap_kept (ms : List (PModel Fields)) (l : List Item) : (l.flatMap keptItem).flatMap (itemPicture ms) = l.flatMap (itemPicture ms) := by
  induction l with
  | nil => rfl
  | cons x l ih => simp only [List.flatMap_cons, List.flatMap_append, kept_picture, ih]

/-- The pictures of picture records, as numbers. -/
theorem refs_shown (ver : Version) (rd : ModelReader Fields) (hrd : ReadsDecls ver rd) (rs : Gen Record) (f : Forest (Nat × PModel Fields))
    (hf : ∀ p, .start p ∈ eventsOf f → (parseModels rd rs).out[p.1]? = some p.2) :
    ∃ ks : List Nat, pictureRefs f = ks.map (fun k : Nat => some (k : Int)) ∧
      (f.map fun p => itemOf p.1 p.2).items.flatMap (itemPicture (parseModels rd rs).out) = ks.map fun k => noNul (natStr k) := by
  induction f with
  | nil => exact ⟨[], rfl, rfl⟩
  | node a cs sibs ih1 ih2 =>
    obtain ⟨k1, h1, h2⟩ := ih1 fun p hp => hf p (by simp [eventsOf, hp])
    obtain ⟨k2, h3, h4⟩ := ih2 fun p hp => hf p (by simp [eventsOf, hp])
    have ha := hf a (by simp [eventsOf])
    simp only [pictureRefs, h1, h3, Forest.map, Forest.items, List.flatMap_cons, List.flatMap_append, h2, h4, itemOf_picture ha]
    by_cases ht : a.2.type = "ShapePicture"
    · obtain ⟨n, hn, hr⟩ := (record_picture ⟨fun _ => [], fun _ => []⟩ ver rd hrd rs a.1 a.2 ha).2 ht
      obtain ⟨k, rfl⟩ : ∃ k : Nat, n = k := ⟨n.toNat, (Int.toNat_of_nonneg hr.1).symm⟩
      exact ⟨k :: (k1 ++ k2), by simp [ht, hn], by simp [ht, refStr, hn, decimal_nat]⟩
    · exact ⟨k1 ++ k2, by simp [ht], by simp [ht]⟩

theorem sectionOf_pictures {env : XmlEnv} {rd : ModelReader Fields} {ver : Version} {s : Nat × Bytes} {cs : Forest XNode} (hrd : ReadsDecls ver rd)
    (h : SectionOf env rd ver s cs) : ∃ f, StreamTree rd s.2 f ∧ ∃ ks : List Nat, pictureRefs f = ks.map (fun k : Nat => some (k : Int)) ∧
      ((allPictures cs).map refText).Perm (ks.map fun k => noNul (natStr k)) := by
  obtain ⟨f, t, g, hf, ⟨i', t', g', hsb, -, hkept, -⟩, hb, -, hx, hk⟩ := h
  have hparse := tree_parse hf
  obtain ⟨ks, h1, h2⟩ := refs_shown ver rd hrd (readRecords s.2) f fun p hp => by rw [← hparse]; exact tree_model hf p hp
  refine ⟨f, hf, ks, h1, ?_⟩
  obtain ⟨K, C, rfl, hq, hC⟩ := kidsOf_shown hk (hx _ (by simp [eventsOf])).2.1 (by
    intro a ha
    obtain ⟨x, h1, rfl⟩ := start_map _ _ _ ha
    exact ⟨(hx x (by simp [eventsOf, h1])).1, (hx x (by simp [eventsOf, h1])).2.1⟩)
  have hd := fun x (hx' : .start x ∈ eventsOf (.node (.sectionDef (some s.1) t) g .nil)) =>
    derived_picture env ver rd hrd (readRecords s.2) x (by rw [← hparse]; exact (hx x hx').2.2.2)
  rw [hparse] at hC
  rw [allPictures_append, quiet_pictures hq, List.nil_append, shown_pictures env _ C hC (by
    intro m hm
    obtain ⟨x, h1, rfl⟩ := start_map _ _ _ hm
    exact (hd x (by simp [eventsOf, h1])).1), items_map, List.flatMap_map]
  have h3 := hkept.flatMap_right (itemPicture (parseModels rd (readRecords s.2)).out)
  rw [flatMap_flatMap_kept, flatMap_flatMap_kept, starts_eventsOf] at h3
  have h4 : allItems (f.map fun p => itemOf p.1 p.2) = (f.map fun p => itemOf p.1 p.2).items := by
    generalize (f.map fun p => itemOf p.1 p.2) = F
    induction F with
    | nil => rfl
    | node a cs sibs ih1 ih2 => simp [allItems, Forest.items, ih1, ih2]
  rw [h4, h2] at h3
  have h5 : g.items.flatMap (fun a => modelPicture (concItem (parseModels rd (readRecords s.2)).out ⟨some ver, none⟩ a)) =
      g.items.flatMap (itemPicture (parseModels rd (readRecords s.2)).out) := by
    apply List.flatMap_congr
    intro x hx
    exact (hd x (by simp [eventsOf, start_of_items g x hx])).2
  rw [h5]
  simpa [Forest.items, itemPicture] using h3

/-! ### Embedded data -/

theorem data_shown (env : XmlEnv) (ctx : DCtx) (fs : Fields) (h : FieldsOf ctx Decl.BinData [] fs) :
    ∃ n v, fs = [("flags", .leaf (.flags Decl.BinDataFlags n)), ("bindata", v)] ∧
      (showMembers env ctx Decl.BinData [] fs).1 = showFlags "flags" Decl.BinDataFlags n ∧
      ((n % 16 = 1 ∧ ∃ id ext, v = .struct [("storage_id", .leaf (.int id)), ("ext", .leaf (.str ext))] ∧
          (showMembers env ctx Decl.BinData [] fs).2 = elem (lit "BinDataEmbedding") [(lit "storage_id", lit "BIN" ++ upperHex 4 id.toNat),
            (lit "ext", ext), (lit "attribute-name", lit "bindata")] []) ∨
        (n % 16 ≠ 1 ∧ ∃ sn as, sn ≠ "BinDataEmbedding" ∧ (showMembers env ctx Decl.BinData [] fs).2 = elem (lit sn) as [])) := by
  simp only [Decl.BinData, Decl.m, fieldsOf_m] at h
  obtain ⟨v1, _, rfl, h1, v2, _, rfl, h2, h3⟩ := h
  obtain ⟨n, rfl⟩ : ∃ n, v1 = .leaf (.flags Decl.BinDataFlags n) := by
    cases v1 with
    | leaf x => cases x <;> simp [Shaped] at h1; exact ⟨_, by rw [h1.1]⟩
    | _ => simp [Shaped] at h1
  rw [FieldsOf.eq_def] at h3
  simp only at h3
  subst h3
  have hev : RefDecl.eval ctx ([] ++ [("flags", .leaf (.flags Decl.BinDataFlags n))]) (.flag "flags" "storage") = .ok ((n % 16 : Nat) : Int) := by
    simp [RefDecl.eval, getValue, getBit, storage_get, List.lookup, bind, Except.bind, pure, Except.pure]
  simp only [Shaped] at h2
  obtain ⟨k, hk, hsel⟩ := h2
  rw [hev] at hk
  cases hk
  refine ⟨n, v2, rfl, ?_⟩
  simp only [Decl.BinData, Decl.m, showMembers, if_true]
  simp only [showTy]
  rw [hev]
  simp only
  generalize hx : n % 16 = x at hsel ⊢
  by_cases x0 : x = 0
  · subst x0
    simp only [Selected, showSels, Int.natCast_zero, if_true] at hsel ⊢
    cases v2 with
    | struct gs =>
      simp only [Decl.BinDataLink, Decl.m, Shaped, fieldsOf_m] at hsel
      obtain ⟨w1, _, rfl, g1, w2, _, rfl, g2, g3⟩ := hsel
      rw [FieldsOf.eq_def] at g3
      simp only at g3
      subst g3
      cases w1 with
      | leaf y1 =>
        cases w2 with
        | leaf y2 =>
          refine ⟨?_, .inr ⟨by decide, "BinDataLink", [(lit "abspath", showPrim env .bstr y1), (lit "relpath", showPrim env .bstr y2),
            (lit "attribute-name", lit "bindata")], by decide, ?_⟩⟩
          · simp [Decl.BinDataLink, Decl.m, showTy, showMembers, Decl.BSTR]
          · simp [Decl.BinDataLink, Decl.m, showTy, showMembers, Decl.BSTR]
        | _ => simp [Decl.BSTR, Shaped] at g2
      | _ => simp [Decl.BSTR, Shaped] at g1
    | _ => simp [Decl.BinDataLink, Shaped] at hsel
  by_cases x1 : x = 1
  · subst x1
    simp only [Selected, showSels, if_neg (show ¬ ((1 : Nat) : Int) = 0 by decide), if_pos (show ((1 : Nat) : Int) = 1 by decide)] at hsel ⊢
    cases v2 with
    | struct gs =>
      simp only [Decl.BinDataEmbedding, Decl.m, Shaped, fieldsOf_m] at hsel
      obtain ⟨w1, _, rfl, g1, w2, _, rfl, g2, g3⟩ := hsel
      rw [FieldsOf.eq_def] at g3
      simp only at g3
      subst g3
      obtain ⟨id, rfl⟩ : ∃ n, w1 = .leaf (.int n) := by
        cases w1 with
        | leaf x => cases x <;> simp [Decl.BinStorageId, Shaped, PrimVal] at g1; exact ⟨_, rfl⟩
        | _ => simp [Decl.BinStorageId, Shaped] at g1
      obtain ⟨ext, rfl⟩ : ∃ n, w2 = .leaf (.str n) := by
        cases w2 with
        | leaf x => cases x <;> simp [Decl.BSTR, Shaped, PrimVal] at g2; exact ⟨_, rfl⟩
        | _ => simp [Decl.BSTR, Shaped] at g2
      refine ⟨?_, .inl ⟨by simp, id, ext, rfl, ?_⟩⟩
      · simp [Decl.BinDataEmbedding, Decl.m, showTy, showMembers, Decl.BSTR, Decl.BinStorageId]
      · simp [Decl.BinDataEmbedding, Decl.m, showTy, showMembers, Decl.BSTR, Decl.BinStorageId, showPrim]
    | _ => simp [Decl.BinDataEmbedding, Shaped] at hsel
  by_cases x2 : x = 2
  · subst x2
    simp only [Selected, showSels, if_neg (show ¬ ((2 : Nat) : Int) = 0 by decide), if_neg (show ¬ ((2 : Nat) : Int) = 1 by decide),
      if_pos (show ((2 : Nat) : Int) = 2 by decide)] at hsel ⊢
    cases v2 with
    | struct gs =>
      simp only [Decl.BinDataStorage, Decl.m, Shaped, fieldsOf_m] at hsel
      obtain ⟨w1, _, rfl, g1, g3⟩ := hsel
      rw [FieldsOf.eq_def] at g3
      simp only at g3
      subst g3
      cases w1 with
      | leaf y1 =>
        refine ⟨?_, .inr ⟨by decide, "BinDataStorage", [(lit "storage_id", showPrim env .binStorageId y1), (lit "attribute-name", lit "bindata")],
          by decide, ?_⟩⟩
        · simp [Decl.BinDataStorage, Decl.m, showTy, showMembers, Decl.BinStorageId]
        · simp [Decl.BinDataStorage, Decl.m, showTy, showMembers, Decl.BinStorageId]
      | _ => simp [Decl.BinStorageId, Shaped] at g1
    | _ => simp [Decl.BinDataStorage, Shaped] at hsel
  · have e0 : ¬ ((x : Nat) : Int) = ((0 : Nat) : Int) := by omega
    have e1 : ¬ ((x : Nat) : Int) = ((1 : Nat) : Int) := by omega
    have e2 : ¬ ((x : Nat) : Int) = ((2 : Nat) : Int) := by omega
    simp only [Selected] at hsel
    rw [if_neg e0, if_neg e1, if_neg e2] at hsel
    exact hsel.elim

/-! ### Numbers -/

theorem natStr_digit (n : Nat) : ∀ c ∈ natStr n, 0x30 ≤ c ∧ c ≤ 0x39 := by
  fun_induction natStr n with
  | case1 n h => intro c hc; simp at hc; omega
  | case2 n h ih =>
    intro c hc
    simp only [List.mem_append, List.mem_singleton] at hc
    rcases hc with hc | rfl
    · exact ih c hc
    · omega

theorem noNul_natStr (n : Nat) : noNul (natStr n) = natStr n :=
  noNul_id _ fun h => absurd (natStr_digit n 0 h).1 (by decide)

theorem foldl_natStr (n : Nat) : (natStr n).foldl (fun n c => 10 * n + (c - 0x30)) 0 = n := by
  fun_induction natStr n with
  | case1 n h => simp
  | case2 n h ih => rw [List.foldl_append, ih]; simp; omega

theorem natStr_nonempty (n : Nat) : natStr n ≠ [] := by
  rw [natStr]; split <;> simp

theorem xpathNumber_natStr (n : Nat) : xpathNumber (natStr n) = some n := by
  unfold xpathNumber
  rw [if_pos ⟨natStr_nonempty n, by rw [List.all_eq_true]; intro c hc; simpa using natStr_digit n c hc⟩, foldl_natStr]

theorem upperHex_noNul (w n : Nat) : noNul (upperHex w n) = upperHex w n := by
  apply noNul_id
  rw [← hexPad_eq]
  have h : ∀ n, ∀ c ∈ hexNatU n, c.toNat ≠ 0 := by
    have hd : ∀ d < 16, (hexDigitU d).toNat ≠ 0 := by decide
    intro n
    fun_induction hexNatU n with
    | case1 n h => intro c hc; simp at hc; subst hc; exact hd n h
    | case2 n h ih =>
      intro c hc
      simp only [List.mem_append, List.mem_singleton] at hc
      rcases hc with hc | rfl
      · exact ih c hc
      · exact hd _ (Nat.mod_lt _ (by decide))
  intro hz
  simp only [hexPad, List.mem_append, List.mem_replicate, List.mem_map, chars] at hz
  rcases hz with ⟨-, hz⟩ | ⟨c, hc, hz⟩
  · exact absurd hz (by decide)
  · exact h n c hc hz

/-! ### The elements of data -/

/-- The element of a `BinData` record, with these attributes and children made of its fields. -/
def DataElement (m : PModel Fields) (as : List (PyStr × PyStr)) (K : Forest XNode) : Prop :=
  (∃ nm as', dataName m = some nm ∧ attrValue as "storage" = lit "embedding" ∧ K = .node (.elem (lit "BinDataEmbedding") as') .nil .nil ∧
    externalPath as' = lit "bindata/" ++ nm ∧ attrValue as' "inline" ≠ lit "true") ∨
  (∃ sn as', dataName m = none ∧ attrValue as "storage" ≠ lit "embedding" ∧ sn ≠ "BinDataEmbedding" ∧ K = .node (.elem (lit sn) as') .nil .nil)

theorem storage_text (n : Nat) : attrValue ((hyphens (showFlags "flags" Decl.BinDataFlags n)).map fun a => (a.1, noNul a.2)) "storage" = lit "embedding" ↔ n % 16 = 1 := by
  have h1 : attrValue ((hyphens (showFlags "flags" Decl.BinDataFlags n)).map fun a => (a.1, noNul a.2)) "storage" =
      noNul (showBits (Decl.bitsE 0 3 [("LINK", 0), ("EMBEDDING", 1), ("STORAGE", 2)] "storage") (bitsNumber n 0 4)) := by
    simp only [showFlags, Decl.BinDataFlags, hyphens, List.map_cons, attrValue]
    rfl
  rw [h1, bitsNumber_eq]
  have h2 : ∀ x < 16, (noNul (showBits (Decl.bitsE 0 3 [("LINK", 0), ("EMBEDDING", 1), ("STORAGE", 2)] "storage") x) = lit "embedding" ↔ x = 1) := by
    decide +kernel
  have := h2 (n % 16) (Nat.mod_lt _ (by decide))
  simpa using this

theorem bal_leaf {n : PyStr} {as : List (PyStr × PyStr)} {K : Forest XNode} (h : BalX (joined (elem n as [])) K) :
    K = .node (.elem n ((hyphens as).map fun a => (a.1, noNul a.2))) .nil .nil := by
  have := bal_elem (r := []) (by simpa using h) kids_nil' kids_nil'
  obtain ⟨A, B, rfl, h1, h2⟩ := this
  rw [bal_unique h1 .nil, bal_unique h2 .nil]

theorem record_data (env : XmlEnv) (ver : Version) (rd : ModelReader Fields) (hrd : ReadsDecls ver rd)
    (rs : Gen Record) (i : Nat) (m : PModel Fields) (hm : (parseModels rd rs).out[i]? = some m) (ht : m.type = "BinData")
    (hb : "bindata" ∈ m.content.map (·.1)) (attrs : List (PyStr × PyStr)) (kids : List XEv) (K : Forest XNode)
    (hs : startModel env ⟨m.type, m.content, ⟨some ver, none⟩⟩ = .ofList (.start (lit m.type) attrs :: kids)) (hK : BalX (joined kids) K) :
    DataElement m (attrs.map fun a => (a.1, noNul a.2)) K := by
  obtain ⟨parts, plain, h1, h2, h3, -⟩ := Props.C71_element_of_record env ver rd hrd rs i m hm (by rw [ht]; decide) (.inr hb) []
    ⟨by simp, by simp, by simp, by simp⟩
  have hch : classChain m.type = [Decl.BinData] := by rw [ht]; rfl
  rw [hch] at h1 h3
  obtain ⟨fs, rfl, hfs⟩ : ∃ fs, parts = [fs] ∧ FieldsOf ⟨some ver, none⟩ Decl.BinData [] fs := by
    cases parts with
    | nil => simp [PartsOf] at h1
    | cons fs parts =>
      cases parts with
      | nil => exact ⟨fs, rfl, by simpa [PartsOf] using h1⟩
      | cons => simp [PartsOf] at h1
  obtain ⟨hcontent, rfl⟩ : m.content = fs ∧ plain = [] := by
    rcases h2 with ⟨h2, h4⟩ | ⟨h2, -⟩
    · exact ⟨by rw [h2]; simp, h4⟩
    · rw [ht] at h2; exact absurd h2 (by decide)
  have hp : ∀ env ctx, showParts env ctx [Decl.BinData] [fs] = showMembers env ctx Decl.BinData [] fs := by
    intro env ctx; simp [showParts]
  rw [List.append_nil, hp] at h3
  have := ofList_injective (hs.symm.trans h3)
  simp only [List.cons.injEq, XEv.start.injEq, true_and, showPlain, List.append_nil, List.map_nil] at this
  obtain ⟨rfl, rfl⟩ := this
  obtain ⟨n, v, hv, hflags, hsel⟩ := data_shown env _ fs hfs
  rw [hflags]
  rcases hsel with ⟨hn, id, ext, rfl, hk⟩ | ⟨hn, sn, as, hsn, hk⟩
  · rw [hk] at hK
    refine .inl ⟨binaryName id (noNul ext), _, ?_, (storage_text n).2 hn, bal_leaf hK, ?_, ?_⟩
    · simp [dataName, hcontent, hv, hn]
    · have ha : ∀ a b : PyStr, (hyphens [(lit "storage_id", a), (lit "ext", b), (lit "attribute-name", lit "bindata")]).map (fun a => (a.1, noNul a.2)) =
          [(lit "storage-id", noNul a), (lit "ext", noNul b), (lit "attribute-name", lit "bindata")] := by
        intro a b; rfl
      rw [ha]
      have h1 : noNul (lit "BIN" ++ upperHex 4 id.toNat) = lit "BIN" ++ upperHex 4 id.toNat := by rw [noNul_append, upperHex_noNul]; rfl
      have h2 : ∀ a b c : PyStr, attrValue [(lit "storage-id", a), (lit "ext", b), (lit "attribute-name", c)] "storage-id" = a := by
        intro a b c; rfl
      have h3 : ∀ a b c : PyStr, attrValue [(lit "storage-id", a), (lit "ext", b), (lit "attribute-name", c)] "ext" = b := by
        intro a b c; rfl
      rw [externalPath, h2, h3, h1, binaryName]
      simp
    · have ha : ∀ a b : PyStr, attrValue ((hyphens [(lit "storage_id", a), (lit "ext", b), (lit "attribute-name", lit "bindata")]).map (fun a => (a.1, noNul a.2))) "inline" = [] := by
        intro a b; rfl
      rw [ha]
      decide
  · rw [hk] at hK
    refine .inr ⟨sn, _, ?_, (fun h => hn ((storage_text n).1 h)), hsn, bal_leaf hK⟩
    unfold dataName
    rw [hcontent, hv]
    split
    · rename_i h
      simp only [List.cons.injEq, Prod.mk.injEq, true_and, and_true, Value.leaf.injEq, PVal.flags.injEq] at h
      rw [if_neg (by rw [← h.1.2]; exact hn)]
    · rfl

/-! ### The data of a document -/

/-- The model of a record. -/
def recItem (ver : Version) (p : Nat × PModel Fields) : ModelItem := ⟨p.2.type, p.2.content, ⟨some ver, none⟩⟩

/-- What is known about the records of `DocInfo`. -/
def DataRecord (env : XmlEnv) (ver : Version) (m : PModel Fields) : Prop :=
  m.type ≠ "BinDataEmbedding" ∧ (m.type = "BinData" → ∀ attrs kids K, startModel env ⟨m.type, m.content, ⟨some ver, none⟩⟩ =
    .ofList (.start (lit m.type) attrs :: kids) → BalX (joined kids) K → DataElement m (attrs.map fun a => (a.1, noNul a.2)) K)

theorem shown_children_none (env : XmlEnv) (ver : Version) (f : Forest (Nat × PModel Fields)) : ∀ T, Shown env (f.map (recItem ver)) T →
    (∀ p, .start p ∈ eventsOf f → DataRecord env ver p.2) → childrenNamed (lit "BinDataEmbedding") T = [] := by
  induction f with
  | nil => intro T hT _; rw [hT]; rfl
  | node a cs sibs _ ih =>
    intro T hT hr
    obtain ⟨p, attrs, kids, K, C, S, hst, hsil, hkids, hK, hC, hS, rfl⟩ := hT
    have h1 : lit (recItem ver a).model ≠ lit "BinDataEmbedding" := by rw [Ne, lit_eq]; exact (hr a (by simp [eventsOf])).1
    simp only [childrenNamed, if_neg h1, List.nil_append]
    exact ih S hS fun p hp => hr p (by simp [eventsOf, hp])

/-- The element of a `BinData` record; without records below it, if `L`. -/
def DataNode (L : Prop) (m : PModel Fields) (x : List (PyStr × PyStr) × Forest XNode) : Prop :=
  ∃ K C, x.2 = K.append C ∧ DataElement m x.1 K ∧ childrenNamed (lit "BinDataEmbedding") C = [] ∧ (L → C = .nil)

theorem withId_data (p : List (Ev ModelItem)) (m : ModelItem) (h : m.model = "BinData") : withId p m = m := by
  unfold withId; rw [h]; rfl

theorem data_children (env : XmlEnv) (ver : Version) (L : Prop) (f : Forest (Nat × PModel Fields)) : ∀ T, Shown env (f.map (recItem ver)) T →
    (∀ p, .start p ∈ eventsOf f → DataRecord env ver p.2) → (L → DataLeaves f) →
    List.Forall₂ (DataNode L) ((f.roots.map (·.2)).filter fun m => m.type = "BinData") (childrenNamed (lit "BinData") T) := by
  induction f with
  | nil => intro T hT _ _; rw [hT]; exact .nil
  | node a cs sibs _ ih =>
    intro T hT hr hl
    obtain ⟨p, attrs, kids, K, C, S, hst, hsil, hkids, hK, hC, hS, rfl⟩ := hT
    have i := ih S hS (fun p hp => hr p (by simp [eventsOf, hp])) fun h => (hl h).2.2
    simp only [Forest.roots, List.map_cons, childrenNamed]
    by_cases ht : a.2.type = "BinData"
    · rw [withId_data _ _ ht] at hst
      have h1 : lit (recItem ver a).model = lit "BinData" := by rw [lit_eq]; exact ht
      simp only [ht, decide_true, List.filter_cons_of_pos, h1, if_true, List.singleton_append]
      refine .cons ⟨K, C, rfl, (hr a (by simp [eventsOf])).2 ht attrs kids K hst hK,
        shown_children_none env ver cs C hC fun p hp => hr p (by simp [eventsOf, hp]), ?_⟩ i
      intro h
      have hcs := (hl h).1 ht
      rw [hcs] at hC
      exact hC
    · have h1 : lit (recItem ver a).model ≠ lit "BinData" := by rw [Ne, lit_eq]; exact ht
      simp only [ht, decide_false, if_neg h1, List.nil_append]
      simpa [ht] using i

/-- `BinData[k]`. -/
def nthNode (k : Nat) (xs : List (List (PyStr × PyStr) × Forest XNode)) : List (List (PyStr × PyStr) × Forest XNode) :=
  match k with
  | 0 => []
  | k + 1 => (xs[k]?).toList

theorem nthData_eq (k : Nat) (T : Forest XNode) : nthData (natStr k) T = nthNode k (childrenNamed (lit "BinData") T) := by
  unfold nthData
  rw [xpathNumber_natStr]
  cases k <;> rfl

theorem data_lists (env : XmlEnv) (ver : Version) (L : Prop) (f : Forest (Nat × PModel Fields)) : ∀ T, Shown env (f.map (recItem ver)) T →
    (∀ p, .start p ∈ eventsOf f → DataRecord env ver p.2) → (L → DataLeaves f) →
    ∃ Xs, List.Forall₂ (List.Forall₂ (DataNode L)) (dataLists f) Xs ∧
      ∀ k, forEach (lit "IdMappings") (nthData (natStr k)) T = Xs.flatMap (nthNode k) := by
  induction f with
  | nil => intro T hT _ _; rw [hT]; exact ⟨[], .nil, fun _ => rfl⟩
  | node a cs sibs _ ih =>
    intro T hT hr hl
    obtain ⟨p, attrs, kids, K, C, S, hst, hsil, hkids, hK, hC, hS, rfl⟩ := hT
    obtain ⟨Xs, i1, i2⟩ := ih S hS (fun p hp => hr p (by simp [eventsOf, hp])) fun h => (hl h).2.2
    simp only [dataLists, forEach]
    by_cases ht : a.2.type = "IdMappings"
    · have h1 : lit (recItem ver a).model = lit "IdMappings" := by rw [lit_eq]; exact ht
      refine ⟨childrenNamed (lit "BinData") C :: Xs, ?_, ?_⟩
      · simp only [ht, if_true, List.singleton_append]
        exact .cons (data_children env ver L cs C hC (fun p hp => hr p (by simp [eventsOf, hp])) fun h => (hl h).2.1) i1
      · intro k
        simp only [h1, if_true, i2, nthData_eq, childrenNamed_append, quiet_children (lit "BinData") (by decide) (silent_tree hK hsil), List.nil_append, List.flatMap_cons]
    · have h1 : lit (recItem ver a).model ≠ lit "IdMappings" := by rw [Ne, lit_eq]; exact ht
      exact ⟨Xs, by simpa [ht] using i1, fun k => by simp only [if_neg h1, List.nil_append, i2]⟩

theorem imgSrc_append (A B : Forest XNode) : imgSrc (A.append B) = imgSrc A ++ imgSrc B := by
  induction A with
  | nil => rfl
  | node a cs sibs _ ih => cases a <;> simp [Forest.append, imgSrc, ih]

theorem dataNode_src {m : PModel Fields} {x : List (PyStr × PyStr) × Forest XNode} (h : DataNode True m x) :
    imgSrc x.2 = ((dataName m).map fun nm => lit "bindata/" ++ nm).toList := by
  obtain ⟨K, C, h1, h2, -, h3⟩ := h
  rw [h1, h3 trivial, forest_append_nil]
  rcases h2 with ⟨nm, as, h4, -, rfl, h5, h6⟩ | ⟨sn, as, h4, -, h5, rfl⟩
  · simp [imgSrc, h4, h5, h6]
  · simp [imgSrc, h4, lit_eq, h5]

theorem dataNode_odt {L : Prop} {m : PModel Fields} {x : List (PyStr × PyStr) × Forest XNode} (h : DataNode L m x) :
    (attrValue x.1 "storage" = lit "embedding" ↔ (dataName m).isSome) ∧
    (childrenNamed (lit "BinDataEmbedding") x.2).map (fun e => externalPath e.1) = ((dataName m).map fun nm => lit "bindata/" ++ nm).toList ∧
    ∀ e ∈ childrenNamed (lit "BinDataEmbedding") x.2, attrValue e.1 "inline" ≠ lit "true" := by
  obtain ⟨K, C, h1, h2, h3, -⟩ := h
  rw [h1, childrenNamed_append, h3, List.append_nil]
  rcases h2 with ⟨nm, as, h4, h7, rfl, h5, h6⟩ | ⟨sn, as, h4, h7, h5, rfl⟩
  · simp [childrenNamed, h4, h5, h6, h7]
  · simp [childrenNamed, h4, lit_eq, h5, h7]

/-- The names of the data with a number. -/
theorem nth_names {γ : Type} {R : PModel Fields → List (PyStr × PyStr) × Forest XNode → Prop} (F : PModel Fields → Option PyStr) (g : List (PyStr × PyStr) × Forest XNode → List γ)
    (h : PyStr → γ) (hg : ∀ m x, R m x → g x = ((F m).map h).toList) {A : List (List (PModel Fields))} {B : List (List (List (PyStr × PyStr) × Forest XNode))}
    (hAB : List.Forall₂ (List.Forall₂ R) A B) (k : Nat) :
    (B.flatMap (nthNode (k + 1))).flatMap g = (A.filterMap fun ms => (ms[k]?).bind F).map h := by
  induction hAB with
  | nil => rfl
  | @cons a b A B hab hAB ih =>
    simp only [List.flatMap_cons, List.flatMap_append, ih]
    have : (nthNode (k + 1) b).flatMap g = (((a[k]?).bind F).map h).toList := by
      have hi : ∀ (k : Nat) {a b}, List.Forall₂ R a b → (nthNode (k + 1) b).flatMap g = (((a[k]?).bind F).map h).toList := by
        intro k a b hab
        induction hab generalizing k with
        | nil => rfl
        | cons h1 h2 ih =>
          cases k with
          | zero => simp [nthNode, hg _ _ h1]
          | succ k => simpa [nthNode] using ih k
      exact hi k hab
    rw [this]
    cases hf : (a[k]?).bind F with
    | none => simp [List.filterMap_cons, hf]
    | some nm => simp [List.filterMap_cons, hf]

/-! ### The pictures of the sections -/

theorem perm_parts {α : Type} {f g a b x y : List α} (h1 : (a ++ x).Perm f) (h2 : (b ++ y).Perm g) : ((a ++ b) ++ (x ++ y)).Perm (f ++ g) := by
  refine .trans ?_ (h1.append h2)
  simp only [List.append_assoc]
  refine .append_left _ ?_
  rw [← List.append_assoc, ← List.append_assoc]
  exact List.perm_append_comm.append_right _

theorem lists_pictures (list : String) (T : Forest XNode) :
    ∃ rest, (forEach (lit list) (fun cs => walkPictures htmlSheet htmlShows cs .paragraphs) T ++ rest).Perm (allPictures T) := by
  induction T with
  | nil => exact ⟨[], .refl _⟩
  | node a cs sibs _ ih =>
    obtain ⟨rest, ih⟩ := ih
    cases a with
    | text t => exact ⟨rest, ih⟩
    | elem n as =>
      simp only [forEach, allPictures]
      generalize (if n = lit "ShapePicture" then [cs] else []) = P
      split
      · have := walkPictures_all html_agrees htmlShows _ html_seen cs .list
        simp only [htmlWays, List.flatMap_cons, List.flatMap_nil, List.append_nil] at this
        have h2 := perm_parts (a := []) (x := P) (.refl _) this
        exact ⟨_, perm_parts h2 ih⟩
      · exact ⟨P ++ allPictures cs ++ rest, perm_parts (a := []) (.refl _) ih⟩

theorem descend_pictures (name list : String) (T : Forest XNode) :
    ∃ rest, (descend (lit name) (forEach (lit list) fun cs => walkPictures htmlSheet htmlShows cs .paragraphs) T ++ rest).Perm (picturesIn name T) := by
  induction T with
  | nil => exact ⟨[], .refl _⟩
  | node a cs sibs ih1 ih2 =>
    cases a with
    | text t => exact ih2
    | elem n as =>
      obtain ⟨r1, ih1⟩ := ih1
      obtain ⟨r2, ih2⟩ := ih2
      simp only [descend, picturesIn]
      split
      · obtain ⟨r0, h0⟩ := lists_pictures list cs
        exact ⟨_, perm_parts (perm_parts h0 ih1) ih2⟩
      · exact ⟨_, perm_parts (perm_parts (a := []) (x := []) (.refl _) ih1) ih2⟩

theorem sections_pictures {S M P : Type} {sh : Sheet M} {v : Places P} {ways : P → List M} (h : Agrees sh v ways) (shows : M → Bool) (seen : P → Bool)
    (hs : ∀ p, ((ways p).filter shows).length = if seen p then 1 else 0) (m : M) (p : P) (hp : ways p = [m])
    (H F : List (Forest XNode)) {R : S → Forest XNode → Prop} {Q : S → List (Forest XNode) → Prop} : ∀ (ss : List S) (T : Forest XNode), SectionNodes R ss T →
    (∀ s ∈ ss, ∀ cs, R s cs → ∀ t, t.Perm (allPictures cs) → Q s t) →
    ∃ pages : List (List (Forest XNode) × List (Forest XNode)), List.Forall₂ (fun s pg => Q s (pg.1 ++ pg.2)) ss pages ∧
      forEach (lit "SectionDef") (fun cs => H ++ walkPictures sh shows cs m ++ F) T = (pages.map fun pg => H ++ pg.1 ++ F).flatten ∧
      (pages.map (·.2)).flatten = hiddenInSections v seen p T := by
  intro ss
  induction ss with
  | nil => intro T hT _; cases hT; exact ⟨[], .nil, rfl, rfl⟩
  | cons s ss ih =>
    intro T hT hQ
    cases T with
    | nil => exact hT.elim
    | node a cs sibs =>
      cases a with
      | text t => exact hT.elim
      | elem n as =>
        obtain ⟨rfl, h2, h3⟩ := hT
        obtain ⟨pages, i1, i2, i3⟩ := ih sibs h3 fun s hs => hQ s (by simp [hs])
        refine ⟨(walkPictures sh shows cs m, hiddenPictures v seen cs p) :: pages, .cons ?_ i1, ?_, ?_⟩
        · have := walkPictures_all h shows seen hs cs p
          rw [hp] at this
          exact hQ s (by simp) cs h2 _ (by simpa using this)
        · simp only [forEach, if_true, i2, List.map_cons, List.flatten_cons]
        · simp only [hiddenInSections, if_true, i3, List.map_cons, List.flatten_cons]

/-! ### The images of a document -/

/-- The images of a document with this tree, for pictures that refer to a number. -/
theorem doc_images (env : XmlEnv) (rd : ModelReader Fields) (d : DocSource) (hrd : ReadsDecls d.version rd) (h : ProperDocument rd d)
    (hd : d.bindata = none) (docinfo : Forest (Nat × PModel Fields)) (hf : StreamTree rd d.docinfo docinfo) (Z : List XEv) (p : List (Ev ModelItem))
    (hZ : XmlOf env (numberedFrom p (docinfoEvs d docinfo)) Z) (T2 : Forest XNode) (hT : BalX (joined Z) T2)
    (doc : Forest XNode) (hdoc : ∀ id, binDataNodes doc id = forEach (lit "IdMappings") (nthData id) T2) (picture : Forest XNode) (k : Nat)
    (hk : refText picture = natStr k) :
    (DataLeaves docinfo → htmlImage doc picture = (dataStream docinfo k).map fun nm => lit "bindata/" ++ nm) ∧
    odtImage doc picture = ⟨(dataStream docinfo k).map fun nm => lit "bindata/" ++ nm, []⟩ := by
  have hev : docinfoEvs d docinfo = eventsOf (docinfo.map (recItem d.version)) := by simp only [docinfoEvs, hd]; rfl
  have hrec : ∀ q, .start q ∈ eventsOf docinfo → (parseModels rd (readRecords d.docinfo)).out[q.1]? = some q.2 ∧ q.2 ∈ (streamModels rd d.docinfo).out := by
    intro q hq
    have := tree_model hf q hq
    exact ⟨by rw [← tree_parse hf]; exact this, List.mem_of_getElem? this⟩
  have hbin : ∀ m ∈ (streamModels rd d.docinfo).out, m.type ≠ "BinData" ∨ "bindata" ∈ m.content.map (·.1) := by
    intro m hm
    by_cases e : m.type = "BinData"
    · exact .inr (h.docinfoData m hm e)
    · exact .inl e
  have hdr : ∀ q, .start q ∈ eventsOf docinfo → DataRecord env d.version q.2 := by
    intro q hq
    obtain ⟨h1, h2⟩ := hrec q hq
    refine ⟨?_, fun ht attrs kids K hs hK => record_data env d.version rd hrd _ q.1 q.2 h1 ht (h.docinfoData q.2 h2 ht) attrs kids K hs hK⟩
    intro e
    have := record_type d.version rd hrd _ q.1 q.2 h1
    rw [e] at this
    exact absurd this (by decide +kernel)
  obtain ⟨T, hT', hshown, -⟩ := shown_forest env (docinfo.map (recItem d.version)) p Z (by
    intro a ha
    obtain ⟨q, hq, rfl⟩ := start_map _ _ _ ha
    obtain ⟨h1, h2⟩ := hrec q hq
    exact ⟨record_good env d.version rd hrd _ q.1 q.2 h1 (h.docinfoTypes q.2 h2) (hbin q.2 h2),
      record_heard env d.version rd hrd _ q.1 q.2 h1 (h.docinfoTypes q.2 h2) (hbin q.2 h2)⟩) (hev ▸ hZ)
  obtain rfl := bal_unique hT hT'
  have e1 : ∀ Xs : List (List (List (PyStr × PyStr) × Forest XNode)), (∀ k, forEach (lit "IdMappings") (nthData (natStr k)) T2 = Xs.flatMap (nthNode k)) → binDataNodes doc (pictureId picture) = Xs.flatMap (nthNode k) := by
    intro Xs h1
    rw [hdoc, pictureId_ref, hk, h1]
  have hlast : ∀ (l : List PyStr), (l.map fun nm => lit "bindata/" ++ nm).getLast? = l.getLast?.map fun nm => lit "bindata/" ++ nm := fun l => List.getLast?_map
  refine ⟨fun hl => ?_, ?_⟩
  · obtain ⟨Xs, h1, h2⟩ := data_lists env d.version True docinfo T2 hshown hdr fun _ => hl
    unfold htmlImage
    rw [e1 Xs h2]
    cases k with
    | zero =>
      have : Xs.flatMap (nthNode 0) = [] := by simp [nthNode]
      rw [this]
      simp [dataStream]
    | succ k =>
      rw [nth_names dataName (fun x => imgSrc x.2) (fun nm => lit "bindata/" ++ nm) (fun m x hx => dataNode_src hx) h1 k, hlast]
      have : (1 : Int) ≤ ((k + 1 : Nat) : Int) := by omega
      simp [dataStream, this]
  · obtain ⟨Xs, h1, h2⟩ := data_lists env d.version False docinfo T2 hshown hdr (fun h => h.elim)
    unfold odtImage
    rw [e1 Xs h2]
    cases k with
    | zero =>
      have : Xs.flatMap (nthNode 0) = [] := by simp [nthNode]
      rw [this]
      simp [dataStream]
    | succ k =>
      have g1 := nth_names dataName (fun x => (childrenNamed (lit "BinDataEmbedding") x.2).map fun e => externalPath e.1) (fun nm => lit "bindata/" ++ nm)
        (fun m x hx => (dataNode_odt (L := False) hx).2.1) h1 k
      have g2 := nth_names dataName (fun x => if attrValue x.1 "storage" = lit "embedding" then [()] else []) (fun _ => ())
        (fun m x hx => by
          have := (dataNode_odt (L := False) hx).1
          cases hm : dataName m <;> simp [hm] at this <;> simp [this]) h1 k
      have g3 := nth_names (fun _ => none) (fun x => (childrenNamed (lit "BinDataEmbedding") x.2).filter fun e => attrValue e.1 "inline" = lit "true") (fun _ => ([], .nil))
        (fun m x hx => by
          simp only [Option.map_none, Option.toList_none, List.filter_eq_nil_iff, decide_eq_true_eq]
          exact (dataNode_odt (L := False) hx).2.2) h1 k
      have g3' : (Xs.flatMap (nthNode (k + 1))).flatMap (fun x => (childrenNamed (lit "BinDataEmbedding") x.2).filter fun e => attrValue e.1 "inline" = lit "true") = [] := by
        rw [g3]; simp
      generalize Xs.flatMap (nthNode (k + 1)) = N at *
      have hk1 : (1 : Int) ≤ ((k + 1 : Nat) : Int) := by omega
      have hstream : dataStream docinfo ((k + 1 : Nat) : Int) = ((dataLists docinfo).filterMap fun ms => (ms[k]?).bind dataName).getLast? := by
        simp [dataStream, hk1]
      rw [hstream]
      rw [← List.filter_flatMap] at g3'
      simp only
      by_cases hany : (N.any fun b => decide (attrValue b.1 "storage" = lit "embedding")) = true
      · rw [if_pos hany, g3']
        have hall : (N.flatMap fun b => childrenNamed (lit "BinDataEmbedding") b.2).filter (fun e => decide (attrValue e.1 "inline" ≠ lit "true")) =
            N.flatMap fun b => childrenNamed (lit "BinDataEmbedding") b.2 := by
          rw [List.filter_eq_self]
          intro e he
          have := List.filter_eq_nil_iff.1 g3' e he
          simpa using this
        rw [hall, List.map_flatMap, g1, hlast]
        rfl
      · rw [if_neg hany]
        have : N.flatMap (fun x => if attrValue x.1 "storage" = lit "embedding" then [()] else []) = [] := by
          rw [List.flatMap_eq_nil_iff]
          intro x hx
          rw [if_neg]
          intro e
          exact hany (List.any_eq_true.2 ⟨x, hx, by simpa using e⟩)
        rw [this] at g2
        have g4 : ((dataLists docinfo).filterMap fun ms => (ms[k]?).bind dataName) = [] := List.map_eq_nil_iff.1 g2.symm
        rw [g4]
        rfl

theorem forall₂_right {α β : Type} {R : α → β → Prop} {A : List α} {B : List β} (h : List.Forall₂ R A B) : ∀ b ∈ B, ∃ a ∈ A, R a b := by
  induction h with
  | nil => intro b hb; cases hb
  | cons h1 _ ih =>
    intro b hb
    simp only [List.mem_cons] at hb
    rcases hb with rfl | hb
    · exact ⟨_, by simp, h1⟩
    · obtain ⟨a, ha, hr⟩ := ih b hb
      exact ⟨a, by simp [ha], hr⟩

end Hwp
