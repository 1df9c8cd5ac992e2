/- Lemmas about directories used as storages. -/
import Verif.Spec.FsStorage
import Verif.Proofs.Unpack
import Verif.Proofs.Listing
import Mathlib.Data.List.Perm.Basic
set_option autoImplicit false
set_option linter.unusedSimpArgs false
set_option linter.unusedVariables false
namespace Hwp
open Spec

theorem fileName_no5 (s : PyStr) : 5 ∉ fileName s := by
  induction s with
  | nil => simp [fileName]
  | cons c cs ih =>
    by_cases h : c = 5
    · subst h; simp [fileName, ih]
    · rw [fileName]
      · simp [ih, Ne.symm h]
      · exact h

mutual
theorem renamedItem_same : ∀ (i : StgItem), NoControlItem i → renamedItem i = i
  | .stream _, _ => rfl
  | .storage es, h => by rw [renamedItem, renamed_same es (by simpa [NoControlItem] using h)]
theorem renamed_same : ∀ (es : StgEntries), NoControl es → renamed es = es
  | .nil, _ => rfl
  | .cons n i rest, h => by
    simp only [NoControl] at h
    rw [renamed, fileName_plain n h.1, renamedItem_same i h.2.1, renamed_same rest h.2.2]
end

theorem renamed_names (es : StgEntries) : (renamed es).names = fileNames es := by
  match es with
  | .nil => rfl
  | .cons n i rest =>
    rw [renamed, StgEntries.names, renamed_names rest]
    rfl

theorem fileNames_nodup : ∀ (es : StgEntries), Unpackable es → (fileNames es).Nodup
  | .nil, _ => by simp [fileNames, StgEntries.names]
  | .cons n i rest, h => by
    simp only [Unpackable] at h
    have := fileNames_nodup rest h.2.2.2.2
    have e : fileNames (.cons n i rest) = fileName n :: fileNames rest := rfl
    rw [e, List.nodup_cons]
    exact ⟨h.2.1, this⟩

theorem fileNames_plain : ∀ (es : StgEntries), Unpackable es → ∀ n ∈ fileNames es, PlainName n
  | .nil, _ => by simp [fileNames, StgEntries.names]
  | .cons n i rest, h => by
    simp only [Unpackable] at h
    have e : fileNames (.cons n i rest) = fileName n :: fileNames rest := rfl
    intro m hm
    rw [e, List.mem_cons] at hm
    rcases hm with rfl | hm
    · exact fileName_plainName h.1
    · exact fileNames_plain rest h.2.2.2.2 m hm

/-- What is found under a name after unpacking. -/
theorem lookup_renamed : ∀ (es : StgEntries) (name : PyStr) (i' : StgItem), Unpackable es → (renamed es).lookup name = some i' →
    ∃ i, i' = renamedItem i ∧ UnpackableItem i ∧ stgItemDepth i ≤ stgDepth es ∧ ∀ q, nodeAt es name q = itemNode i q
  | .nil, _, _, _, h => by simp [renamed, StgEntries.lookup] at h
  | .cons n i rest, name, i', hu, h => by
    simp only [Unpackable] at hu
    rw [renamed, StgEntries.lookup] at h
    by_cases e : fileName n = name
    · rw [if_pos e] at h
      refine ⟨i, (Option.some.inj h).symm, hu.2.2.2.1, by rw [stgDepth]; omega, fun q => ?_⟩
      rw [nodeAt, if_pos e]
    · rw [if_neg e] at h
      obtain ⟨j, h1, h2, h3, h4⟩ := lookup_renamed rest name i' hu.2.2.2.2 h
      refine ⟨j, h1, h2, by rw [stgDepth]; omega, fun q => ?_⟩
      rw [nodeAt, if_neg e, h4]

theorem lookup_none_names : ∀ (es : StgEntries) (name : PyStr), es.lookup name = none → name ∉ es.names
  | .nil, _, _ => by simp [StgEntries.names]
  | .cons n i rest, name, h => by
    rw [StgEntries.lookup] at h
    by_cases e : n = name
    · rw [if_pos e] at h; cases h
    · rw [if_neg e] at h
      rw [StgEntries.names, List.mem_cons, not_or]
      exact ⟨Ne.symm e, lookup_none_names rest name h⟩

theorem not_names_lookup : ∀ (es : StgEntries) (name : PyStr), name ∉ es.names → es.lookup name = none
  | .nil, _, _ => rfl
  | .cons n i rest, name, h => by
    rw [StgEntries.names, List.mem_cons, not_or] at h
    rw [StgEntries.lookup, if_neg (Ne.symm h.1), not_names_lookup rest name h.2]

/-- The tree of an item stands at a path. -/
def TreeAt (fs : FS) (p : List PyStr) (i : StgItem) : Prop := ∀ q, fs (p ++ q) = itemNode i q

theorem dirAt_below {fs : FS} {p : List PyStr} {n : PyStr} (h : DirAt fs p) (hn : fs (p ++ [n]) = some .dir) : DirAt fs (p ++ [n]) := by
  intro q hq
  rcases List.prefix_concat_iff.1 hq with rfl | hq
  · exact hn
  · exact h q hq

theorem resolve_self {fs : FS} {p : List PyStr} (hp : ∀ s ∈ p, PlainName s) (hd : DirAt fs p) : resolve fs p = some p := by
  rcases List.eq_nil_or_concat p with rfl | ⟨q, n, rfl⟩
  · rfl
  · rw [List.concat_eq_append] at *
    refine resolve_dir (fun s hs => hp s (by simp [hs])) (hp n (by simp)) ?_
    intro r hr
    exact hd r (hr.trans (List.prefix_append _ _))

theorem fsJoin_plain (p : List PyStr) (name : PyStr) (h : slash ∉ name) : fsJoin p name = p ++ [name] := by
  have : name.head? ≠ some slash := by
    intro e
    cases name with
    | nil => simp at e
    | cons c cs => simp at e; exact h (by simp [e])
  rw [fsJoin, if_neg this, splitSlash_plain name h]

theorem fsGet_plain {fs : FS} {p : List PyStr} {name : PyStr} (hp : ∀ s ∈ p, PlainName s) (hd : DirAt fs p)
    (hn : PlainName name) (hs : slash ∉ name) :
    fsGet fs p name = (match fs (p ++ [name]) with
      | some .dir => .ok (.storage (p ++ [name]))
      | some (.file _) => .ok (.stream (p ++ [name]))
      | none => .error .keyError) := by
  unfold fsGet
  rw [fsJoin_plain p name hs]
  unfold isDir pathExists
  dsimp only
  rw [resolve_dir hp hn hd]
  cases hf : fs (p ++ [name]) with
  | none => simp [hf]
  | some x =>
    cases x with
    | dir => simp [hf]
    | file d => simp [hf]

theorem fsIter_dir {ls : List PyStr → List PyStr} {fs : FS} {p : List PyStr} (hp : ∀ s ∈ p, PlainName s) (hd : DirAt fs p) :
    fsIter ls fs p = .ok (sortNames (ls p)) := by
  unfold fsIter isDir
  rw [resolve_self hp hd]
  simp [hd p List.prefix_rfl]

theorem insertName_perm (n : PyStr) (l : List PyStr) : (insertName n l).Perm (n :: l) := by
  induction l with
  | nil => exact List.Perm.refl _
  | cons m l ih =>
    rw [insertName]
    split
    · exact (List.Perm.cons m ih).trans (List.Perm.swap n m l)
    · exact List.Perm.refl _

theorem sortNames_perm (l : List PyStr) : (sortNames l).Perm l := by
  induction l with
  | nil => exact List.Perm.refl _
  | cons n l ih => exact (insertName_perm n _).trans (List.Perm.cons n ih)

theorem nodeAt_some_iff (es : StgEntries) (hu : Unpackable es) (n : PyStr) : nodeAt es n [] ≠ none ↔ n ∈ fileNames es := by
  constructor
  · intro h
    by_cases hm : n ∈ fileNames es
    · exact hm
    · exact absurd (nodeAt_none es n hm []) h
  · intro h
    cases hl : (renamed es).lookup n with
    | none =>
      have := lookup_none_names _ _ hl
      rw [renamed_names] at this
      exact absurd h this
    | some i' =>
      obtain ⟨i, _, _, _, h4⟩ := lookup_renamed es n i' hu hl
      rw [h4]
      cases i <;> simp [itemNode]

theorem ls_perm {ls : List PyStr → List PyStr} {fs : FS} {p : List PyStr} {es : StgEntries} (hls : ListsDirs ls fs)
    (hp : ∀ s ∈ p, PlainName s) (hd : DirAt fs p) (ht : TreeAt fs p (.storage es)) (hu : Unpackable es) :
    (sortNames (ls p)).Perm (renamed es).names ∧ (sortNames (ls p)).Pairwise (· < ·) := by
  obtain ⟨h1, h2⟩ := hls p p (resolve_self hp hd) (hd p List.prefix_rfl)
  refine ⟨(sortNames_perm _).trans ?_, sortNames_sorted _ h1⟩
  rw [renamed_names]
  refine (List.perm_ext_iff_of_nodup h1 (fileNames_nodup es hu)).2 fun n => ?_
  rw [h2, ht [n], itemNode, nodeAt_some_iff es hu]

/-- Opening a path in a directory which is an unpacked item. -/
theorem fsOpen_same (ls : List PyStr → List PyStr) (fs : FS) (hls : ListsDirs ls fs) (path : List PyStr) :
    ∀ (p : List PyStr) (i : StgItem), (∀ s ∈ path, PlainName s ∧ slash ∉ s) → (∀ s ∈ p, PlainName s) →
      resolve fs p = some p → TreeAt fs p i → UnpackableItem i → (∀ es, i = .storage es → DirAt fs p) →
      SameResult ls fs (fsOpen fs (match i with | .stream _ => .stream p | .storage _ => .storage p) path)
        (openSegments (renamedItem i) path) := by
  induction path with
  | nil =>
    intro p i _ hp hr ht hu hd
    cases i with
    | stream d =>
      refine ⟨d, rfl, ?_⟩
      have := ht []
      rw [List.append_nil] at this
      unfold fsRead
      rw [hr]
      simp [this, itemNode]
    | storage es =>
      have hd := hd es rfl
      have := ls_perm hls hp hd ht (by simpa [UnpackableItem] using hu)
      exact ⟨renamed es, _, rfl, fsIter_dir hp hd, this.1, this.2⟩
  | cons name rest ih =>
    intro p i hpath hp hr ht hu hd
    cases i with
    | stream d => exact rfl
    | storage es =>
      have hd := hd es rfl
      have hu : Unpackable es := by simpa [UnpackableItem] using hu
      obtain ⟨hn, hs⟩ := hpath name (by simp)
      have hg := fsGet_plain hp hd hn hs
      rw [ht [name], itemNode] at hg
      have hp' : ∀ s ∈ p ++ [name], PlainName s := by
        intro s hs
        simp only [List.mem_append, List.mem_singleton] at hs
        rcases hs with hs | rfl
        · exact hp s hs
        · exact hn
      rw [renamedItem, openSegments]
      dsimp only
      rw [fsOpen]
      cases hl : (renamed es).lookup name with
      | none =>
        have hm := lookup_none_names _ _ hl
        rw [renamed_names] at hm
        rw [nodeAt_none es name hm] at hg
        rw [hg]
        exact rfl
      | some i' =>
        obtain ⟨j, rfl, h2, _, h4⟩ := lookup_renamed es name i' hu hl
        have ht' : TreeAt fs (p ++ [name]) j := by
          intro q
          have := ht (name :: q)
          rw [itemNode, h4] at this
          simpa using this
        have := ih (p ++ [name]) j (fun s hs => hpath s (by simp [hs])) hp' (resolve_dir hp hn hd) ht' h2
          (by
            rintro es' rfl
            refine dirAt_below hd ?_
            have := ht' []
            simpa [itemNode] using this)
        rw [h4] at hg
        cases j with
        | stream d =>
          rw [itemNode] at hg
          rw [hg]
          exact this
        | storage es' =>
          rw [itemNode] at hg
          rw [hg]
          exact this

theorem unpack_tree (es : StgEntries) (hu : Unpackable es) (base : List PyStr) (fs : FS)
    (hbase : ∀ s ∈ base, 5 ∉ s ∧ PlainName s) (hdir : DirAt fs base) (hfree : ∀ n q, fs (base ++ n :: q) = none) :
    ∃ fs', unpack fs base es = (fs', none) ∧ TreeAt fs' base (.storage es) ∧ DirAt fs' base := by
  obtain ⟨fs', h1, h2, h3⟩ := unpack_spec es hu base fs hbase hdir (fun n _ q => hfree n q)
  have hpre : ∀ q, q <+: base → fs' q = some .dir := by
    intro q hq
    rw [h3 q, hdir q hq]
    intro m hm r e
    have := hq.length_le
    rw [e] at this
    simp at this
  refine ⟨fs', h1, ?_, hpre⟩
  intro q
  cases q with
  | nil => rw [List.append_nil, hpre base List.prefix_rfl]; rfl
  | cons m r =>
    rw [itemNode]
    by_cases hm : m ∈ fileNames es
    · exact h2 m r hm
    · rw [nodeAt_none es m hm r, h3, hfree]
      intro m' hm' q' e
      have := List.append_cancel_left e
      injection this with e1 _
      subst e1
      exact hm hm'

/-! ### Leaves -/

theorem listNames_perm (f : PyStr → Option (Except PyErr (List PyStr))) (g : PyStr → List PyStr) :
    ∀ (l : List PyStr), (∀ n ∈ l, ∃ xs, f n = some (.ok xs) ∧ xs.Perm (g n)) →
      ∃ xs, listNames f l = some (.ok xs) ∧ xs.Perm (l.flatMap g)
  | [], _ => ⟨[], rfl, List.Perm.refl _⟩
  | n :: l, h => by
    obtain ⟨xs, h1, h2⟩ := h n (by simp)
    obtain ⟨ys, h3, h4⟩ := listNames_perm f g l (fun m hm => h m (by simp [hm]))
    refine ⟨xs ++ ys, ?_, ?_⟩
    · rw [listNames, h1]
      simp only [h3]
    · rw [List.flatMap_cons]
      exact h2.append h4

/-- The leaves found under one name. -/
def leafsNamed (base : PyStr) (es : StgEntries) (n : PyStr) : List PyStr :=
  match es.lookup n with
  | some i => leafsItem (base ++ n) i
  | none => []

theorem leafs_named (base : PyStr) : ∀ (es : StgEntries), es.names.Nodup → leafs base es = es.names.flatMap (leafsNamed base es)
  | .nil, _ => rfl
  | .cons n i rest, h => by
    rw [StgEntries.names, List.nodup_cons] at h
    rw [leafs, StgEntries.names, List.flatMap_cons, leafs_named base rest h.2]
    congr 1
    · simp [leafsNamed, StgEntries.lookup]
    · have key : ∀ l : List PyStr, n ∉ l → l.flatMap (leafsNamed base rest) = l.flatMap (leafsNamed base (.cons n i rest)) := by
        intro l hl
        induction l with
        | nil => rfl
        | cons m l ih =>
          rw [List.mem_cons, not_or] at hl
          rw [List.flatMap_cons, List.flatMap_cons, ih hl.2]
          congr 1
          simp [leafsNamed, StgEntries.lookup, hl.1]
      exact key _ h.1

mutual
theorem slashFreeItem_renamed : ∀ (i : StgItem), WfItem i → ∀ es, i = .storage es → ∀ n ∈ fileNames es, slash ∉ n
  | .stream _, _, _, e => by cases e
  | .storage es, h, es', e => by
    cases e
    exact slashFree_renamed es (by simpa [WfItem] using h)
theorem slashFree_renamed : ∀ (es : StgEntries), WfEntries es → ∀ n ∈ fileNames es, slash ∉ n
  | .nil, _, n, hn => by simp [fileNames, StgEntries.names] at hn
  | .cons m i rest, h, n, hn => by
    simp only [WfEntries] at h
    have e : fileNames (.cons m i rest) = fileName m :: fileNames rest := rfl
    rw [e, List.mem_cons] at hn
    rcases hn with rfl | hn
    · have : ∀ s : PyStr, 0x2f ∉ s → slash ∉ fileName s := by
        intro s
        induction s with
        | nil => simp [fileName]
        | cons c cs ih =>
          intro hc
          simp only [List.mem_cons, not_or] at hc
          by_cases h5 : c = 5
          · subst h5
            simp [fileName, slash] at ih ⊢
            exact ih hc.2
          · rw [fileName]
            · simp only [List.mem_cons, not_or]
              exact ⟨hc.1, ih hc.2⟩
            · exact h5
      exact this m h.1
    · exact slashFree_renamed rest h.2.2.2 n hn
end

theorem lookup_renamed_wf : ∀ (es : StgEntries) (name : PyStr) (i' : StgItem), Unpackable es → WfEntries es →
    (renamed es).lookup name = some i' →
    ∃ i, i' = renamedItem i ∧ UnpackableItem i ∧ WfItem i ∧ stgItemDepth i ≤ stgDepth es ∧ ∀ q, nodeAt es name q = itemNode i q
  | .nil, _, _, _, _, h => by simp [renamed, StgEntries.lookup] at h
  | .cons n i rest, name, i', hu, hw, h => by
    simp only [Unpackable] at hu
    simp only [WfEntries] at hw
    rw [renamed, StgEntries.lookup] at h
    by_cases e : fileName n = name
    · rw [if_pos e] at h
      refine ⟨i, (Option.some.inj h).symm, hu.2.2.2.1, hw.2.2.1, by rw [stgDepth]; omega, fun q => ?_⟩
      rw [nodeAt, if_pos e]
    · rw [if_neg e] at h
      obtain ⟨j, h1, h2, h2', h3, h4⟩ := lookup_renamed_wf rest name i' hu.2.2.2.2 hw.2.2.2 h
      refine ⟨j, h1, h2, h2', by rw [stgDepth]; omega, fun q => ?_⟩
      rw [nodeAt, if_neg e, h4]

theorem fsLeafs_perm (ls : List PyStr → List PyStr) (fs : FS) (hls : ListsDirs ls fs) (depth : Nat) :
    ∀ (p : List PyStr) (es : StgEntries) (base : PyStr), stgDepth es < depth → Unpackable es → WfEntries es →
      (∀ s ∈ p, PlainName s) → DirAt fs p → TreeAt fs p (.storage es) →
      ∃ xs, fsLeafs ls fs depth p base = some (.ok xs) ∧ xs.Perm (leafs base (renamed es)) := by
  induction depth with
  | zero => intro p es base h; omega
  | succ depth ih =>
    intro p es base hdep hu hw hp hd ht
    obtain ⟨hperm, _⟩ := ls_perm hls hp hd ht hu
    rw [fsLeafs, fsIter_dir hp hd]
    dsimp only
    have hnd : (renamed es).names.Nodup := by rw [renamed_names]; exact fileNames_nodup es hu
    rw [leafs_named base _ hnd]
    obtain ⟨xs, h1, h2⟩ := listNames_perm (fun name =>
        match fsGet fs p name with
        | .error e => some (.error e)
        | .ok (.storage q) => fsLeafs ls fs depth q (base ++ name ++ [slash])
        | .ok (.stream _) => some (.ok [base ++ name])) (leafsNamed base (renamed es)) (sortNames (ls p)) (by
      intro n hn
      have hn : n ∈ (renamed es).names := hperm.mem_iff.1 hn
      have hn' : n ∈ fileNames es := by rwa [renamed_names] at hn
      have hpl := fileNames_plain es hu n hn'
      have hg := fsGet_plain hp hd hpl (slashFree_renamed es hw n hn')
      rw [ht [n], itemNode] at hg
      cases hl : (renamed es).lookup n with
      | none => exact absurd hn (lookup_none_names _ _ hl)
      | some i' =>
        obtain ⟨j, rfl, hj1, hj2, hj3, h4⟩ := lookup_renamed_wf es n i' hu hw hl
        rw [h4] at hg
        have ht' : TreeAt fs (p ++ [n]) j := by
          intro q
          have := ht (n :: q)
          rw [itemNode, h4] at this
          simpa using this
        cases j with
        | stream d =>
          rw [itemNode] at hg
          refine ⟨[base ++ n], by simp only [hg], ?_⟩
          simp [leafsNamed, hl, renamedItem, leafsItem]
        | storage es' =>
          rw [itemNode] at hg
          obtain ⟨xs, h5, h6⟩ := ih (p ++ [n]) es' (base ++ n ++ [slash])
            (by rw [stgItemDepth] at hj3; omega) (by simpa [UnpackableItem] using hj1) (by simpa [WfItem] using hj2)
            (by
              intro s hs
              simp only [List.mem_append, List.mem_singleton] at hs
              rcases hs with hs | rfl
              · exact hp s hs
              · exact hpl)
            (dirAt_below hd (by have := ht' []; simpa [itemNode] using this)) ht'
          refine ⟨xs, by simp only [hg]; exact h5, ?_⟩
          simp only [leafsNamed, hl, renamedItem, leafsItem]
          exact h6)
    exact ⟨xs, h1, h2.trans (hperm.flatMap_right _)⟩

end Hwp
