/-
Proofs about listing and opening the items of a document.
-/
import Verif.Spec.Listing
import Verif.Proofs.Storage
import Verif.Proofs.ModelJson
set_option autoImplicit false
set_option linter.unusedSimpArgs false
set_option linter.unusedVariables false
namespace Hwp
open Spec

/-! ### Order of names -/

theorem strLt_iff (a b : PyStr) : strLt a b = true ↔ a < b := by
  induction a generalizing b with
  | nil => cases b <;> simp [strLt]
  | cons x a ih =>
    cases b with
    | nil => simp [strLt]
    | cons y b =>
      rw [strLt, List.cons_lt_cons_iff]
      by_cases h : x < y
      · simp [h]
      · by_cases h' : y < x
        · simp [h, h']; omega
        · have e : x = y := by omega
          simp [h, h', ih, e]

theorem sortKeys_names {α} (l : List (PyStr × α)) : (sortKeys l).map Prod.fst = sortNames (l.map Prod.fst) := by
  have h : ∀ (k : PyStr) (v : α) (l : List (PyStr × α)), (insertKey k v l).map Prod.fst = insertName k (l.map Prod.fst) := by
    intro k v l
    induction l with
    | nil => rfl
    | cons x l ih =>
      obtain ⟨k', v'⟩ := x
      simp only [insertKey, List.map_cons, insertName]
      split
      · rw [List.map_cons, ih]
      · rfl
  induction l with
  | nil => rfl
  | cons x l ih =>
    obtain ⟨k, v⟩ := x
    rw [sortKeys, h, ih]
    rfl

theorem insertName_mem (n : PyStr) (l : List PyStr) : ∀ x, x ∈ insertName n l ↔ x = n ∨ x ∈ l := by
  induction l with
  | nil => intro x; simp [insertName]
  | cons m l ih =>
    intro x
    rw [insertName]
    split
    · rw [List.mem_cons, ih, List.mem_cons]
      constructor
      · rintro (h | h | h) <;> simp [h]
      · rintro (h | h | h) <;> simp [h]
    · simp

theorem sortNames_mem (l : List PyStr) : ∀ x, x ∈ sortNames l ↔ x ∈ l := by
  induction l with
  | nil => intro x; rfl
  | cons n l ih => intro x; rw [sortNames, insertName_mem, ih, List.mem_cons]

theorem sortNames_sorted (l : List PyStr) (h : l.Nodup) : (sortNames l).Pairwise (· < ·) := by
  have key : ∀ (n : PyStr) (l : List PyStr), n ∉ l → l.Pairwise (· < ·) → (insertName n l).Pairwise (· < ·) := by
    intro n l
    induction l with
    | nil => intro _ _; simp [insertName]
    | cons m l ih =>
      intro hn hp
      rw [List.pairwise_cons] at hp
      rw [insertName]
      split
      · next hlt =>
        rw [List.pairwise_cons]
        refine ⟨?_, ih (by simp at hn; exact hn.2) hp.2⟩
        intro x hx
        rcases (insertName_mem n l x).1 hx with rfl | hx
        · exact (strLt_iff _ _).1 hlt
        · exact hp.1 x hx
      · next hlt =>
        have h1 : n < m := by
          rw [strLt_iff] at hlt
          have : n ≠ m := by rintro rfl; exact hn (by simp)
          rcases List.le_iff_lt_or_eq.1 (List.not_lt.1 hlt) with h | h
          · exact h
          · exact absurd h this
        rw [List.pairwise_cons]
        refine ⟨?_, List.pairwise_cons.2 hp⟩
        intro x hx
        rcases List.mem_cons.1 hx with rfl | hx
        · exact h1
        · exact List.lt_trans h1 (hp.1 x hx)
  induction l with
  | nil => exact .nil
  | cons n l ih =>
    rw [List.nodup_cons] at h
    rw [sortNames]
    exact key n _ (by rw [sortNames_mem]; exact h.1) (ih h.2)

/-! ### Storages by their items -/

/-- The entries as pairs. -/
def plainEnt : VEntries → List (PyStr × VItem)
  | .nil => []
  | .cons n i rest => (n, i) :: plainEnt rest

/-- The entries with those of other formats. -/
def extraEnt : VEntries → List (PyStr × VItem)
  | .nil => []
  | .cons n i rest => (n, i) :: (i.formats.map fun f => (n ++ f.1, .stream f.2 [])) ++ extraEnt rest

/-- The streams of an entry. -/
def block (str : VEntries → List (List PyStr × Bytes)) : PyStr × VItem → List (List PyStr × Bytes)
  | (n, .stream d _) => [([n], d)]
  | (n, .storage es _) => (str es).map fun p => (n :: p.1, p.2)

/-- What the proofs need to know about a kind of storage. -/
structure Viewed (v : StorageView) (ent : VEntries → List (PyStr × VItem)) (str : VEntries → List (List PyStr × Bytes))
    (ok : VEntries → Prop) : Prop where
  names : ∀ es, v.names es = (ent es).map Prod.fst
  get : ∀ es, ok es → ∀ n i, v.get es n = some i ↔ (n, i) ∈ ent es
  str : ∀ es, str es = (ent es).flatMap (block str)
  depth : ∀ es n es' f, (n, VItem.storage es' f) ∈ ent es → itemDepth.depth es' + 1 ≤ itemDepth.depth es
  nodup : ∀ es, ok es → ((ent es).map Prod.fst).Nodup
  slash : ∀ es, ok es → ∀ x ∈ ent es, 0x2f ∉ x.1
  sub : ∀ es, ok es → ∀ n es' f, (n, VItem.storage es' f) ∈ ent es → ok es'

theorem listNames_map {α} (item : PyStr → Option (Except PyErr (List PyStr))) (g : PyStr × α → List PyStr)
    (l : List (PyStr × α)) (h : ∀ x ∈ l, item x.1 = some (.ok (g x))) :
    listNames item (l.map Prod.fst) = some (.ok (l.flatMap g)) := by
  induction l with
  | nil => rfl
  | cons x l ih =>
    rw [List.map_cons, listNames, h x (by simp), ih fun y hy => h y (by simp [hy])]
    rfl

theorem flatMap_perm {α β} (l : List α) (f g : α → List β) (h : ∀ x ∈ l, (f x).Perm (g x)) : (l.flatMap f).Perm (l.flatMap g) := by
  induction l with
  | nil => exact .refl _
  | cons a l ih =>
    rw [List.flatMap_cons, List.flatMap_cons]
    exact (h a (by simp)).append (ih fun x hx => h x (by simp [hx]))

theorem exists_fun {α β} (l : List α) (P : α → List β → Prop) (h : ∀ x ∈ l, ∃ y, P x y) : ∃ f : α → List β, ∀ x ∈ l, P x (f x) := by
  refine ⟨fun x => Classical.epsilon fun y => P x y, ?_⟩
  intro x hx
  exact Classical.epsilon_spec (h x hx)

section
variable {v : StorageView} {ent : VEntries → List (PyStr × VItem)} {str : VEntries → List (List PyStr × Bytes)} {ok : VEntries → Prop}

theorem block_ne (hv : Viewed v ent str ok) (d : Nat) : ∀ es, itemDepth.depth es ≤ d → ∀ p ∈ str es, p.1 ≠ [] := by
  intro es _ p hp
  rw [hv.str, List.mem_flatMap] at hp
  obtain ⟨⟨n, i⟩, hx, hp⟩ := hp
  cases i with
  | stream => simp only [block, List.mem_singleton] at hp; subst hp; simp
  | storage => simp only [block, List.mem_map] at hp; obtain ⟨q, -, rfl⟩ := hp; simp

theorem pathText_under (n : PyStr) (q : List PyStr) (h : q ≠ []) (base : PyStr) :
    base ++ n ++ [slash] ++ pathText q = base ++ pathText (n :: q) := by
  cases q with
  | nil => exact absurd rfl h
  | cons a q => simp [pathText, slash]

theorem print_all (hv : Viewed v ent str ok) : ∀ (d : Nat) (es : VEntries) (base : PyStr), itemDepth.depth es ≤ d → ok es →
    ∃ ps : List (List PyStr × Bytes), ps.Perm (str es) ∧ ps.Pairwise (fun a b => a.1 < b.1) ∧
      printStorage v d base es = some (.ok (ps.map fun p => unicodeEscape (base ++ pathText p.1))) := by
  intro d
  induction d with
  | zero =>
    intro es base h
    have : 1 ≤ itemDepth.depth es := by
      cases es with
      | nil => simp [itemDepth.depth]
      | cons => simp only [itemDepth.depth]; omega
    omega
  | succ d ih =>
    intro es base hd hok
    have hitem : ∀ x ∈ ent es, ∃ ps : List (List PyStr × Bytes), ps.Perm (block str x) ∧ ps.Pairwise (fun a b => a.1 < b.1) ∧
        (match v.get es x.1 with
          | none => some (.error .keyError)
          | some (.storage es' _) => printStorage v d (base ++ x.1 ++ [slash]) es'
          | some (.stream _ _) => some (.ok [unicodeEscape (base ++ x.1)])) =
          some (.ok (ps.map fun p => unicodeEscape (base ++ pathText p.1))) := by
      intro x hx
      obtain ⟨n, i⟩ := x
      dsimp only
      rw [(hv.get es hok n i).2 hx]
      cases i with
      | stream data f => exact ⟨[([n], data)], .refl _, by simp, rfl⟩
      | storage es' f =>
        have hdep := hv.depth es n es' f hx
        obtain ⟨ps, h1, h2, h3⟩ := ih es' (base ++ n ++ [slash]) (by omega) (hv.sub es hok n es' f hx)
        refine ⟨ps.map fun p => (n :: p.1, p.2), h1.map _, ?_, ?_⟩
        · rw [List.pairwise_map]
          refine h2.imp fun {a b} hab => ?_
          exact List.cons_lt_cons_iff.2 (.inr ⟨rfl, hab⟩)
        · dsimp only
          rw [h3, List.map_map]
          congr 2
          apply List.map_congr_left
          intro p hp
          have hne := block_ne hv (d + 1) es' (by omega) p (h1.mem_iff.1 hp)
          show _ = unicodeEscape (base ++ pathText (n :: p.1))
          rw [← pathText_under n p.1 hne base]
    obtain ⟨f, hf⟩ := exists_fun (ent es) _ hitem
    have hperm := sortKeys_perm (ent es)
    refine ⟨(sortKeys (ent es)).flatMap f, ?_, ?_, ?_⟩
    · rw [hv.str]
      refine (List.Perm.flatMap_right f hperm).trans ?_
      exact flatMap_perm _ _ _ fun x hx => (hf x hx).1
    · rw [List.pairwise_flatMap]
      refine ⟨fun x hx => (hf x (hperm.mem_iff.1 hx)).2.1, ?_⟩
      have hs := sortNames_sorted _ (hv.nodup es hok)
      rw [← sortKeys_names, List.pairwise_map] at hs
      refine List.Pairwise.imp_of_mem (fun {a b} ha hb hab => ?_) hs
      intro p hp q hq
      have heads : ∀ (x : PyStr × VItem) (r : List PyStr × Bytes), r ∈ block str x → ∃ t, r.1 = x.1 :: t := by
        intro x r hr
        obtain ⟨n, i⟩ := x
        cases i with
        | stream => simp only [block, List.mem_singleton] at hr; subst hr; exact ⟨[], rfl⟩
        | storage => simp only [block, List.mem_map] at hr; obtain ⟨q, -, rfl⟩ := hr; exact ⟨_, rfl⟩
      obtain ⟨t, ht⟩ := heads a p ((hf a (hperm.mem_iff.1 ha)).1.mem_iff.1 hp)
      obtain ⟨u, hu⟩ := heads b q ((hf b (hperm.mem_iff.1 hb)).1.mem_iff.1 hq)
      rw [ht, hu]
      exact List.cons_lt_cons_iff.2 (.inl hab)
    · rw [printStorage, hv.names, ← sortKeys_names,
        listNames_map _ (fun x => (f x).map fun p => unicodeEscape (base ++ pathText p.1)) _
          fun x hx => (hf x (hperm.mem_iff.1 hx)).2.2]
      rw [List.map_flatMap]

theorem open_iff (hv : Viewed v ent str ok) : ∀ (segs : List PyStr) (es : VEntries) (f : List (PyStr × Bytes)) (d : Bytes), ok es →
    ((∃ g, openView v (.storage es f) segs = .ok (.stream d g)) ↔ (segs, d) ∈ str es) := by
  intro segs
  induction segs with
  | nil =>
    intro es f d hok
    constructor
    · rintro ⟨g, h⟩; simp [openView] at h
    · intro h; exact absurd rfl (block_ne hv _ es (Nat.le_refl _) _ h)
  | cons n rest ih =>
    intro es f d hok
    rw [openView, hv.str, List.mem_flatMap]
    constructor
    · rintro ⟨g, h⟩
      cases hg : v.get es n with
      | none => rw [hg] at h; cases h
      | some i =>
        rw [hg] at h
        have hm := (hv.get es hok n i).1 hg
        refine ⟨(n, i), hm, ?_⟩
        cases i with
        | stream data g' =>
          cases rest with
          | nil =>
            simp only [openView, Except.ok.injEq, VItem.stream.injEq] at h
            simp [block, h.1]
          | cons a rest => simp [openView] at h
        | storage es' g' =>
          have := (ih es' g' d (hv.sub es hok n es' g' hm)).1 ⟨g, h⟩
          simp only [block, List.mem_map]
          exact ⟨(rest, d), this, rfl⟩
    · rintro ⟨⟨m, i⟩, hm, hp⟩
      cases i with
      | stream data g' =>
        simp only [block, List.mem_singleton, Prod.mk.injEq, List.cons.injEq] at hp
        obtain ⟨⟨rfl, rfl⟩, rfl⟩ := hp
        rw [(hv.get es hok n _).2 hm]
        exact ⟨g', rfl⟩
      | storage es' g' =>
        simp only [block, List.mem_map, Prod.mk.injEq, List.cons.injEq] at hp
        obtain ⟨⟨q, d'⟩, hq, ⟨rfl, rfl⟩, rfl⟩ := hp
        rw [(hv.get es hok m _).2 hm]
        exact (ih es' g' d' (hv.sub es hok m es' g' hm)).2 hq

theorem str_plain (hv : Viewed v ent str ok) : ∀ (d : Nat) (es : VEntries), itemDepth.depth es ≤ d → ok es →
    ∀ p ∈ str es, ∀ s ∈ p.1, 0x2f ∉ s := by
  intro d
  induction d with
  | zero =>
    intro es h
    have : 1 ≤ itemDepth.depth es := by
      cases es with
      | nil => simp [itemDepth.depth]
      | cons => simp only [itemDepth.depth]; omega
    omega
  | succ d ih =>
    intro es hd hok p hp s hs
    rw [hv.str, List.mem_flatMap] at hp
    obtain ⟨⟨n, i⟩, hx, hp⟩ := hp
    have hn := hv.slash es hok _ hx
    cases i with
    | stream => simp only [block, List.mem_singleton] at hp; subst hp; simp at hs; subst hs; exact hn
    | storage es' f =>
      simp only [block, List.mem_map] at hp
      obtain ⟨q, hq, rfl⟩ := hp
      rcases List.mem_cons.1 hs with rfl | hs
      · exact hn
      · have := hv.depth es n es' f hx
        exact ih es' (by omega) (hv.sub es hok n es' f hx) q hq s hs

theorem cat_iff (hv : Viewed v ent str ok) (es : VEntries) (hok : ok es) (path : PyStr) (d : Bytes) :
    catStream v es path = .ok d ↔ ∃ q, (q, d) ∈ str es ∧ path = pathText q := by
  have h1 : catStream v es path = .ok d ↔ ∃ g, openView v (.storage es []) (splitSlash path) = .ok (.stream d g) := by
    unfold catStream
    constructor
    · intro h
      split at h
      · cases h
      · cases h
      · next data f e => injection h with h; subst h; exact ⟨f, e⟩
    · rintro ⟨g, h⟩; rw [h]
  rw [h1, open_iff hv _ es [] d hok]
  constructor
  · intro h; exact ⟨_, h, (pathText_splitSlash path).symm⟩
  · rintro ⟨q, hq, rfl⟩
    rwa [splitSlash_pathText q (block_ne hv _ es (Nat.le_refl _) _ hq) (str_plain hv _ es (Nat.le_refl _) hok _ hq)]

end

/-! ### The two kinds of storages -/

theorem depth_cons (n : PyStr) (i : VItem) (rest : VEntries) :
    itemDepth.depth (.cons n i rest) = max (itemDepth i + 1) (itemDepth.depth rest) := by rw [itemDepth.depth]

theorem plain_lookup (n : PyStr) (i : VItem) : ∀ es : VEntries, (es.names).Nodup → (es.lookup n = some i ↔ (n, i) ∈ plainEnt es)
  | .nil, _ => by simp [VEntries.lookup, plainEnt]
  | .cons m j rest, h => by
    rw [VEntries.names, List.nodup_cons] at h
    rw [VEntries.lookup, plainEnt, List.mem_cons]
    by_cases e : m = n
    · subst e
      simp only [if_true, Option.some.injEq, Prod.mk.injEq, true_and]
      constructor
      · intro h; exact .inl h.symm
      · rintro (h' | h')
        · exact h'.symm
        · have key : ∀ es : VEntries, (m, i) ∈ plainEnt es → m ∈ es.names := by
            intro es
            induction es using VEntries.rec (motive_1 := fun _ => True) with
            | stream => trivial
            | storage => trivial
            | nil => intro h; simp [plainEnt] at h
            | cons a b c _ ih =>
              intro h
              rw [plainEnt, List.mem_cons] at h
              rw [VEntries.names, List.mem_cons]
              rcases h with h | h
              · injection h with h; exact .inl h
              · exact .inr (ih h)
          exact absurd (key rest h') h.1
    · rw [if_neg e, plain_lookup n i rest h.2]
      constructor
      · intro h; exact .inr h
      · rintro (h | h)
        · injection h with h; exact absurd h.symm e
        · exact h

theorem plainEnt_names : ∀ es : VEntries, es.names = (plainEnt es).map Prod.fst
  | .nil => rfl
  | .cons n i rest => by rw [VEntries.names, plainEnt, List.map_cons, plainEnt_names rest]

theorem plain_str : ∀ es : VEntries, realStreams es = (plainEnt es).flatMap (block realStreams)
  | .nil => by rw [realStreams]; rfl
  | .cons n i rest => by
    rw [realStreams, plainEnt, List.flatMap_cons, ← plain_str rest]
    congr 1
    cases i with
    | stream => rw [realItem]; rfl
    | storage => rw [realItem]; rfl

theorem plain_depth : ∀ (es : VEntries) (n : PyStr) (es' : VEntries) (f : List (PyStr × Bytes)),
    (n, VItem.storage es' f) ∈ plainEnt es → itemDepth.depth es' + 1 ≤ itemDepth.depth es
  | .nil, n, es', f, h => by simp [plainEnt] at h
  | .cons m j rest, n, es', f, h => by
    rw [depth_cons]
    rw [plainEnt, List.mem_cons] at h
    rcases h with h | h
    · injection h with _ h
      rw [← h, itemDepth]
      omega
    · have := plain_depth rest n es' f h; omega

theorem real_nodup : ∀ es : VEntries, RealEntries es → es.names.Nodup
  | .nil, _ => by simp [VEntries.names]
  | .cons n i rest, h => by
    rw [RealEntries] at h
    rw [VEntries.names, List.nodup_cons]
    exact ⟨h.2.1, real_nodup rest h.2.2.2⟩

theorem real_slash : ∀ es : VEntries, RealEntries es → ∀ x ∈ plainEnt es, 0x2f ∉ x.1 ∧ RealNames x.2
  | .nil, _, x, hx => by simp [plainEnt] at hx
  | .cons n i rest, h, x, hx => by
    rw [RealEntries] at h
    rw [plainEnt, List.mem_cons] at hx
    rcases hx with rfl | hx
    · exact ⟨h.1, h.2.2.1⟩
    · exact real_slash rest h.2.2.2 x hx

theorem plain_viewed : Viewed plainView plainEnt realStreams RealEntries where
  names := plainEnt_names
  get := fun es h n i => plain_lookup n i es (real_nodup es h)
  str := plain_str
  depth := plain_depth
  nodup := fun es h => by rw [← plainEnt_names]; exact real_nodup es h
  slash := fun es h x hx => (real_slash es h x hx).1
  sub := fun es h n es' f hm => by have := (real_slash es h _ hm).2; rwa [RealNames] at this

theorem allNames_eq : ∀ es : VEntries, allNames es = (extraEnt es).map Prod.fst
  | .nil => rfl
  | .cons n i rest => by
    rw [Spec.allNames.eq_def]; dsimp only; rw [extraEnt, List.map_append, allNames_eq rest, List.map_cons, List.map_map]
    cases i <;> rfl

theorem extraNames_eq : ∀ es : VEntries, extraNames es = (extraEnt es).map Prod.fst
  | .nil => rfl
  | .cons n i rest => by
    rw [extraNames, extraEnt, List.map_append, extraNames_eq rest, List.map_cons, List.map_map]
    rfl

theorem extra_str : ∀ es : VEntries, allStreams es = (extraEnt es).flatMap (block allStreams)
  | .nil => by rw [allStreams]; rfl
  | .cons n i rest => by
    rw [allStreams.eq_def]
    dsimp only
    rw [extraEnt, List.flatMap_append, ← extra_str rest, List.flatMap_cons, List.flatMap_map]
    have e : ∀ l : List (PyStr × Bytes), (l.flatMap fun f => block allStreams (n ++ f.1, .stream f.2 [])) =
        l.map fun f => ([n ++ f.1], f.2) := by
      intro l
      induction l with
      | nil => rfl
      | cons a l ih => rw [List.flatMap_cons, ih]; rfl
    rw [e]
    cases i with
    | stream => rw [allItem]; rfl
    | storage => rw [allItem]; rfl

theorem plain_extra : ∀ (es : VEntries) (x : PyStr × VItem), x ∈ plainEnt es → x ∈ extraEnt es
  | .nil, x, h => by simp [plainEnt] at h
  | .cons m j rest, x, h => by
    rw [plainEnt, List.mem_cons] at h
    rw [extraEnt, List.mem_append, List.mem_cons]
    rcases h with h | h
    · exact .inl (.inl h)
    · exact .inr (plain_extra rest x h)

theorem extra_storage : ∀ (es : VEntries) (n : PyStr) (es' : VEntries) (f : List (PyStr × Bytes)),
    (n, VItem.storage es' f) ∈ extraEnt es → (n, VItem.storage es' f) ∈ plainEnt es
  | .nil, n, es', f, h => by simp [extraEnt] at h
  | .cons m j rest, n, es', f, h => by
    rw [extraEnt, List.mem_append, List.mem_cons] at h
    rw [plainEnt, List.mem_cons]
    rcases h with (h | h) | h
    · exact .inl h
    · simp at h
    · exact .inr (extra_storage rest n es' f h)

theorem findFormat_mem (n : PyStr) (i : VItem) : ∀ es : VEntries, findFormat n es = some i → (n, i) ∈ extraEnt es
  | .nil, h => by simp [findFormat] at h
  | .cons m j rest, h => by
    rw [findFormat] at h
    rw [extraEnt, List.mem_append, List.mem_cons]
    split at h
    · next f hf =>
      have h1 := List.find?_some hf
      have h2 := List.mem_of_find?_eq_some hf
      injection h with h
      refine .inl (.inr (List.mem_map.2 ⟨f, h2, ?_⟩))
      simp only [decide_eq_true_eq] at h1
      rw [h1, h]
    · exact .inr (findFormat_mem n i rest h)

theorem findFormat_some (n : PyStr) (i : VItem) : ∀ es : VEntries, (n, i) ∈ extraEnt es → (n, i) ∉ plainEnt es →
    ∃ j, findFormat n es = some j
  | .nil, h, _ => by simp [extraEnt] at h
  | .cons m j rest, h, hp => by
    rw [extraEnt, List.mem_append, List.mem_cons] at h
    rw [plainEnt, List.mem_cons] at hp
    rw [findFormat]
    split
    · exact ⟨_, rfl⟩
    · next hf =>
      rcases h with (h | h) | h
      · exact absurd (.inl h) hp
      · obtain ⟨f, h1, h2⟩ := List.mem_map.1 h
        rw [List.find?_eq_none] at hf
        have := hf f h1
        simp only [decide_eq_true_eq] at this
        injection h2 with h2
        exact absurd h2 this
      · exact findFormat_some n i rest h fun h' => hp (.inr h')

theorem pair_unique {α β} {l : List (α × β)} (h : (l.map Prod.fst).Nodup) {a : α} {x y : β} (hx : (a, x) ∈ l) (hy : (a, y) ∈ l) :
    x = y := by
  induction l with
  | nil => cases hx
  | cons p l ih =>
    rw [List.map_cons, List.nodup_cons] at h
    rcases List.mem_cons.1 hx with hx | hx <;> rcases List.mem_cons.1 hy with hy | hy
    · rw [← hx] at hy; injection hy with _ hy; exact hy.symm
    · exact absurd (List.mem_map.2 ⟨_, hy, by rw [← hx]⟩) h.1
    · exact absurd (List.mem_map.2 ⟨_, hx, by rw [← hy]⟩) h.1
    · exact ih h.2 hx hy

theorem plain_sublist : ∀ es : VEntries, (plainEnt es).Sublist (extraEnt es)
  | .nil => .slnil
  | .cons m j rest => by
    rw [plainEnt, extraEnt, List.cons_append]
    exact ((plain_sublist rest).trans (List.sublist_append_right _ _)).cons_cons _

theorem extra_get (es : VEntries) (h : (allNames es).Nodup) (n : PyStr) (i : VItem) : extraGet es n = some i ↔ (n, i) ∈ extraEnt es := by
  rw [allNames_eq] at h
  have hp : es.names.Nodup := by
    rw [plainEnt_names]
    exact h.sublist ((plain_sublist es).map _)
  unfold extraGet
  constructor
  · intro hg
    split at hg
    · next j hl =>
      injection hg with hg; subst hg
      exact plain_extra es _ ((plain_lookup n _ es hp).1 hl)
    · exact findFormat_mem n i es hg
  · intro hm
    split
    · next j hl =>
      have := plain_extra es _ ((plain_lookup n _ es hp).1 hl)
      rw [pair_unique h this hm]
    · next hl =>
      have hnp : (n, i) ∉ plainEnt es := by
        intro hpl
        rw [(plain_lookup n i es hp).2 hpl] at hl
        cases hl
      obtain ⟨j, hj⟩ := findFormat_some n i es hm hnp
      rw [hj, pair_unique h (findFormat_mem n j es hj) hm]

/-- A storage in which all names are distinct. -/
def ExtraOk (es : VEntries) : Prop := (allNames es).Nodup ∧ (∀ n ∈ allNames es, 0x2f ∉ n) ∧ AllEntriesOk es

theorem extra_sub : ∀ es : VEntries, AllEntriesOk es → ∀ n es' f, (n, VItem.storage es' f) ∈ plainEnt es → ExtraOk es'
  | .nil, _, n, es', f, h => by simp [plainEnt] at h
  | .cons m j rest, hok, n, es', f, h => by
    rw [AllEntriesOk] at hok
    rw [plainEnt, List.mem_cons] at h
    rcases h with h | h
    · injection h with _ h
      have := hok.1
      rw [← h, AllNamesOk] at this
      exact this
    · exact extra_sub rest hok.2 n es' f h

theorem extra_viewed : Viewed extraView extraEnt allStreams ExtraOk where
  names := extraNames_eq
  get := fun es h n i => extra_get es h.1 n i
  str := extra_str
  depth := fun es n es' f h => plain_depth es n es' f (extra_storage es n es' f h)
  nodup := fun es h => by rw [← allNames_eq]; exact h.1
  slash := fun es h x hx => h.2.1 _ (by rw [allNames_eq]; exact List.mem_map.2 ⟨x, hx, rfl⟩)
  sub := fun es h n es' f hm => extra_sub es h.2.2 n es' f (extra_storage es n es' f hm)

/-! ### Escaped names -/

theorem escVal_digit : ∀ n < 16, escVal (escDigit n) = some n := by decide

theorem escNum_append (a : PyStr) : ∀ (acc : Nat) (b : PyStr), escNum acc (a ++ b) = (escNum acc a).bind fun x => escNum x b := by
  induction a with
  | nil => intro acc b; rfl
  | cons c a ih =>
    intro acc b
    rw [List.cons_append, escNum, escNum]
    cases escVal c with
    | none => rfl
    | some d => exact ih _ b

theorem escNum_hex : ∀ (w n : Nat), n < 16 ^ w → escNum 0 (escHex w n) = some n
  | 0, n, h => by
    have : n = 0 := by simp at h; exact h
    subst this; rfl
  | w + 1, n, h => by
    rw [escHex, escNum_append, escNum_hex w (n / 16) (by rw [Nat.pow_succ] at h; omega)]
    show escNum (n / 16) [escDigit (n % 16)] = some n
    rw [escNum, escVal_digit _ (by omega)]
    show some (16 * (n / 16) + n % 16) = some n
    congr 1
    omega

theorem escHex_length : ∀ (w n : Nat), (escHex w n).length = w
  | 0, n => rfl
  | w + 1, n => by rw [escHex, List.length_append, escHex_length]; rfl

theorem readEscaped_char (c : Nat) (hc : c < 0x110000) (s r : PyStr) (h : readEscaped s = some r) :
    readEscaped (escChar c ++ s) = some (c :: r) := by
  unfold escChar
  split
  · next e => subst e; simp only [List.cons_append, List.nil_append]; rw [readEscaped, h]; rfl
  split
  · next e => subst e; simp only [List.cons_append, List.nil_append]; rw [readEscaped, h]; rfl
  split
  · next e => subst e; simp only [List.cons_append, List.nil_append]; rw [readEscaped, h]; rfl
  split
  · next e => subst e; simp only [List.cons_append, List.nil_append]; rw [readEscaped, h]; rfl
  split
  · next h1 h2 h3 h4 h5 =>
    simp only [List.cons_append, List.nil_append]
    rw [readEscaped, h]
    · rfl
    all_goals (intros; subst_vars; simp_all)
  split
  · next hlt =>
    have hn := escNum_hex 2 c (by norm_num; exact hlt)
    have hl := escHex_length 2 c
    match hx : escHex 2 c with
    | [a, b] =>
      rw [hx] at hn
      simp only [List.cons_append, List.nil_append]
      rw [readEscaped, h]
      show (escNum 0 [a, b]).map (· :: r) = _
      rw [hn]; rfl
    | [] | [_] | _ :: _ :: _ :: _ => rw [hx] at hl; simp at hl
  split
  · next hlt =>
    have hn := escNum_hex 4 c (by norm_num; exact hlt)
    have hl := escHex_length 4 c
    match hx : escHex 4 c with
    | [a, b, c', d] =>
      rw [hx] at hn
      simp only [List.cons_append, List.nil_append]
      rw [readEscaped, h]
      show (escNum 0 [a, b, c', d]).map (· :: r) = _
      rw [hn]; rfl
    | [] | [_] | [_, _] | [_, _, _] | _ :: _ :: _ :: _ :: _ :: _ => rw [hx] at hl; simp at hl
  · have hn := escNum_hex 8 c (by norm_num; omega)
    have hl := escHex_length 8 c
    match hx : escHex 8 c with
    | [a, b, c', d, e, f, g, i] =>
      rw [hx] at hn
      simp only [List.cons_append, List.nil_append]
      rw [readEscaped, h]
      show (escNum 0 [a, b, c', d, e, f, g, i]).map (· :: r) = _
      rw [hn]; rfl
    | [] | [_] | [_, _] | [_, _, _] | [_, _, _, _] | [_, _, _, _, _] | [_, _, _, _, _, _] | [_, _, _, _, _, _, _]
    | _ :: _ :: _ :: _ :: _ :: _ :: _ :: _ :: _ :: _ => rw [hx] at hl; simp at hl

theorem readEscaped_escape (s : PyStr) (hs : ∀ c ∈ s, c < 0x110000) : readEscaped (unicodeEscape s) = some s := by
  induction s with
  | nil => rfl
  | cons c s ih =>
    have e : unicodeEscape (c :: s) = escChar c ++ unicodeEscape s := by
      unfold unicodeEscape; rw [List.flatMap_cons]
    rw [e]
    exact readEscaped_char c (hs c (by simp)) _ _ (ih fun x hx => hs x (by simp [hx]))

theorem escDigit_printable : ∀ n < 16, 0x20 ≤ escDigit n ∧ escDigit n < 0x7f := by decide

theorem escHex_printable : ∀ (w n : Nat), ∀ x ∈ escHex w n, 0x20 ≤ x ∧ x < 0x7f
  | 0, n, x, h => by cases h
  | w + 1, n, x, h => by
    rw [escHex, List.mem_append, List.mem_singleton] at h
    rcases h with h | rfl
    · exact escHex_printable w _ x h
    · exact escDigit_printable _ (by omega)

theorem escape_printable (s : PyStr) : ∀ x ∈ unicodeEscape s, 0x20 ≤ x ∧ x < 0x7f := by
  intro x hx
  unfold unicodeEscape at hx
  rw [List.mem_flatMap] at hx
  obtain ⟨c, -, hx⟩ := hx
  unfold escChar at hx
  split at hx
  · simp at hx; subst hx; decide
  split at hx
  · simp at hx; rcases hx with rfl | rfl <;> decide
  split at hx
  · simp at hx; rcases hx with rfl | rfl <;> decide
  split at hx
  · simp at hx; rcases hx with rfl | rfl <;> decide
  split at hx
  · next h => simp at hx; subst hx; exact h
  split at hx
  · rw [List.mem_append] at hx
    rcases hx with hx | hx
    · simp at hx; rcases hx with rfl | rfl <;> decide
    · exact escHex_printable _ _ x hx
  split at hx
  · rw [List.mem_append] at hx
    rcases hx with hx | hx
    · simp at hx; rcases hx with rfl | rfl <;> decide
    · exact escHex_printable _ _ x hx
  · rw [List.mem_append] at hx
    rcases hx with hx | hx
    · simp at hx; rcases hx with rfl | rfl <;> decide
    · exact escHex_printable _ _ x hx

end Hwp
