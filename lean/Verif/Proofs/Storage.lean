/- Lemmas about storages. -/
import Verif.Spec.Storage
set_option linter.unusedSimpArgs false
namespace Hwp
open Spec

/-! ### Leaves -/

theorem pathText_cons2 (s t : PyStr) (r : List PyStr) :
    pathText (s :: t :: r) = s ++ 0x2f :: pathText (t :: r) := rfl

mutual
theorem leafsItem_eq (path : PyStr) : ∀ (i : StgItem),
    leafsItem path i = (itemStreams i).map (fun p =>
      match p.1 with
      | [] => path
      | s :: r => path ++ 0x2f :: pathText (s :: r))
  | .stream d => by simp [leafsItem, itemStreams]
  | .storage es => by
    rw [leafsItem, leafs_eq (path ++ [slash]) es, itemStreams]
    apply List.map_congr_left
    intro p hp
    have := streams_ne es p hp
    cases h : p.1 with
    | nil => exact absurd h this
    | cons s r => simp [slash]
theorem leafs_eq (base : PyStr) : ∀ (es : StgEntries),
    leafs base es = (streams es).map (fun p => base ++ pathText p.1)
  | .nil => by simp [leafs, streams]
  | .cons n i rest => by
    rw [leafs, leafsItem_eq (base ++ n) i, leafs_eq base rest, streams, List.map_append, List.map_map]
    congr 1
    apply List.map_congr_left
    intro p _
    dsimp only [Function.comp]
    cases h : p.1 with
    | nil => simp [pathText]
    | cons s r => simp [pathText_cons2]
theorem streams_ne : ∀ (es : StgEntries) (p : List PyStr × Bytes), p ∈ streams es → p.1 ≠ []
  | .nil, p, h => by simp [streams] at h
  | .cons n i rest, p, h => by
    rw [streams, List.mem_append] at h
    rcases h with h | h
    · obtain ⟨q, _, rfl⟩ := List.mem_map.1 h
      simp
    · exact streams_ne rest p h
end

theorem splitSlash_ne (s : PyStr) : splitSlash s ≠ [] := by
  cases s with
  | nil => simp [splitSlash]
  | cons c cs =>
    rw [splitSlash]
    split
    · simp
    · split <;> simp

theorem splitSlash_plain (s : PyStr) (h : 0x2f ∉ s) : splitSlash s = [s] := by
  induction s with
  | nil => rfl
  | cons c cs ih =>
    simp only [List.mem_cons, not_or] at h
    rw [splitSlash, if_neg (by unfold slash; exact Ne.symm h.1), ih h.2]

theorem splitSlash_append (s rest : PyStr) (h : 0x2f ∉ s) :
    splitSlash (s ++ 0x2f :: rest) = s :: splitSlash rest := by
  induction s with
  | nil => simp [splitSlash, slash]
  | cons c cs ih =>
    simp only [List.mem_cons, not_or] at h
    rw [List.cons_append, splitSlash, if_neg (by unfold slash; exact Ne.symm h.1), ih h.2]

theorem splitSlash_pathText : ∀ (segs : List PyStr), segs ≠ [] → (∀ s ∈ segs, 0x2f ∉ s) →
    splitSlash (pathText segs) = segs
  | [], h, _ => absurd rfl h
  | [s], _, hs => splitSlash_plain s (hs s (by simp))
  | s :: t :: r, _, hs => by
    rw [pathText_cons2, splitSlash_append s _ (hs s (by simp)),
      splitSlash_pathText (t :: r) (by simp) (fun x hx => hs x (by simp at hx ⊢; right; exact hx))]

theorem pathText_splitSlash (s : PyStr) : pathText (splitSlash s) = s := by
  induction s with
  | nil => rfl
  | cons c cs ih =>
    rw [splitSlash]
    have hne := splitSlash_ne cs
    split
    · rename_i h
      cases hs : splitSlash cs with
      | nil => exact absurd hs hne
      | cons t r =>
        rw [pathText_cons2, ← hs, ih, h]
        rfl
    · cases hs : splitSlash cs with
      | nil => exact absurd hs hne
      | cons t r =>
        rw [hs] at ih
        dsimp only
        cases r with
        | nil => simp [pathText] at ih ⊢; exact ih
        | cons u v => rw [pathText_cons2] at ih ⊢; simp [ih]

theorem lookup_names (n : PyStr) : ∀ (es : StgEntries) (i : StgItem), es.lookup n = some i → n ∈ es.names
  | .nil, i, h => by simp [StgEntries.lookup] at h
  | .cons m j rest, i, h => by
    rw [StgEntries.lookup] at h
    split at h
    · rename_i e; simp [StgEntries.names, e]
    · simp [StgEntries.names, lookup_names n rest i h]

theorem streams_head : ∀ (es : StgEntries) (p : List PyStr × Bytes), p ∈ streams es →
    ∃ n r, p.1 = n :: r ∧ n ∈ es.names
  | .nil, p, h => by simp [streams] at h
  | .cons n i rest, p, h => by
    rw [streams, List.mem_append] at h
    rcases h with h | h
    · obtain ⟨q, _, rfl⟩ := List.mem_map.1 h
      exact ⟨n, q.1, rfl, by simp [StgEntries.names]⟩
    · obtain ⟨m, r, h1, h2⟩ := streams_head rest p h
      exact ⟨m, r, h1, by simp [StgEntries.names, h2]⟩

mutual
/-- Opening by segments finds exactly the streams. -/
theorem openItem_iff : ∀ (i : StgItem), WfItem i → ∀ segs d,
    openSegments i segs = .ok (.stream d) ↔ (segs, d) ∈ itemStreams i
  | .stream d', _, segs, d => by
    cases segs with
    | nil => simp [openSegments, itemStreams]; exact eq_comm
    | cons s r => simp [openSegments, itemStreams]
  | .storage es, hw, segs, d => by
    rw [itemStreams]
    cases segs with
    | nil =>
      simp only [openSegments, Except.ok.injEq, reduceCtorEq, false_iff]
      intro h
      exact streams_ne es _ h rfl
    | cons s r => exact openEntries_iff es (by simpa [WfItem] using hw) s r d
theorem openEntries_iff : ∀ (es : StgEntries), WfEntries es → ∀ s r d,
    openSegments (.storage es) (s :: r) = .ok (.stream d) ↔ (s :: r, d) ∈ streams es
  | .nil, _, s, r, d => by simp [openSegments, StgEntries.lookup, streams]
  | .cons n i rest, hw, s, r, d => by
    simp only [WfEntries] at hw
    obtain ⟨h1, h2, h3, h4⟩ := hw
    have hi := openItem_iff i h3 r d
    have hr := openEntries_iff rest h4 s r d
    rw [streams, List.mem_append, List.mem_map]
    by_cases hs : n = s
    · subst hs
      simp only [openSegments, StgEntries.lookup, if_true]
      rw [hi]
      constructor
      · intro h; exact Or.inl ⟨(r, d), h, rfl⟩
      · rintro (⟨q, hq, e⟩ | h)
        · simp only [Prod.mk.injEq, List.cons.injEq, true_and] at e
          obtain ⟨e1, e2⟩ := e
          subst e1 e2
          exact hq
        · obtain ⟨m, r', h5, h6⟩ := streams_head rest _ h
          simp only [List.cons.injEq] at h5
          exact absurd (h5.1 ▸ h6) h2
    · simp only [openSegments, StgEntries.lookup, hs, if_false]
      simp only [openSegments] at hr
      rw [hr]
      constructor
      · intro h; exact Or.inr h
      · rintro (⟨q, hq, e⟩ | h)
        · simp only [Prod.mk.injEq, List.cons.injEq] at e
          exact absurd e.1.1 hs
        · exact h
end

mutual
theorem itemStreams_plain : ∀ (i : StgItem), WfItem i → ∀ p ∈ itemStreams i, ∀ s ∈ p.1, 0x2f ∉ s
  | .stream d, _, p, hp, s, hs => by
    simp [itemStreams] at hp; subst hp; simp at hs
  | .storage es, hw, p, hp, s, hs => streams_plain es (by simpa [WfItem] using hw) p (by simpa [itemStreams] using hp) s hs
theorem streams_plain : ∀ (es : StgEntries), WfEntries es → ∀ p ∈ streams es, ∀ s ∈ p.1, 0x2f ∉ s
  | .nil, _, p, hp, s, hs => by simp [streams] at hp
  | .cons n i rest, hw, p, hp, s, hs => by
    simp only [WfEntries] at hw
    rw [streams, List.mem_append] at hp
    rcases hp with h | h
    · obtain ⟨q, hq, rfl⟩ := List.mem_map.1 h
      simp only [List.mem_cons] at hs
      rcases hs with rfl | hs
      · exact hw.1
      · exact itemStreams_plain i hw.2.2.1 q hq s hs
    · exact streams_plain rest hw.2.2.2 p h s hs
end

mutual
theorem itemStreams_nodup : ∀ (i : StgItem), WfItem i → ((itemStreams i).map (·.1)).Nodup
  | .stream d, _ => by simp [itemStreams]
  | .storage es, hw => by rw [itemStreams]; exact streams_nodup es (by simpa [WfItem] using hw)
theorem streams_nodup : ∀ (es : StgEntries), WfEntries es → ((streams es).map (·.1)).Nodup
  | .nil, _ => by simp [streams]
  | .cons n i rest, hw => by
    simp only [WfEntries] at hw
    rw [streams, List.map_append, List.nodup_append]
    refine ⟨?_, streams_nodup rest hw.2.2.2, ?_⟩
    · have h := itemStreams_nodup i hw.2.2.1
      rw [List.map_map]
      have e : ((fun x : List PyStr × Bytes => x.1) ∘ fun p : List PyStr × Bytes => (n :: p.1, p.2)) =
          (n :: ·) ∘ (fun x : List PyStr × Bytes => x.1) := rfl
      rw [e, ← List.map_map]
      exact List.Pairwise.map (n :: ·) (fun a b hab e => hab (by simpa using e)) h
    · intro a ha b hb hab
      subst hab
      obtain ⟨q, hq, rfl⟩ := List.mem_map.1 ha
      obtain ⟨q', hq', rfl⟩ := List.mem_map.1 hq
      obtain ⟨q2, hq2, e⟩ := List.mem_map.1 hb
      obtain ⟨m, r, h1, h2⟩ := streams_head rest q2 hq2
      dsimp only at e
      rw [h1] at e
      simp only [List.cons.injEq] at e
      exact absurd (e.1 ▸ h2) hw.2.1
end

theorem pathText_inj {a b : List PyStr} (ha : a ≠ []) (hb : b ≠ []) (pa : ∀ s ∈ a, 0x2f ∉ s)
    (pb : ∀ s ∈ b, 0x2f ∉ s) (h : pathText a = pathText b) : a = b := by
  rw [← splitSlash_pathText a ha pa, ← splitSlash_pathText b hb pb, h]

end Hwp
