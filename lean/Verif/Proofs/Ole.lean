/- Lemmas about walking an OLE file. -/
import Verif.Proofs.Storage
set_option linter.unusedSimpArgs false
namespace Hwp
open Spec

/-- Paths of the streams. -/
def streamPaths (es : StgEntries) : List (List PyStr) := (streams es).map (·.1)

mutual
theorem oleListdirItem_eq (path : List PyStr) : ∀ (i : StgItem),
    oleListdirItem path i = (itemStreams i).map (fun p => path ++ p.1)
  | .stream d => by simp [oleListdirItem, itemStreams]
  | .storage es => by rw [oleListdirItem, oleListdirFrom_eq path es, itemStreams]
theorem oleListdirFrom_eq (path : List PyStr) : ∀ (es : StgEntries),
    oleListdirFrom path es = (streams es).map (fun p => path ++ p.1)
  | .nil => by simp [oleListdirFrom, streams]
  | .cons n i rest => by
    rw [oleListdirFrom, oleListdirItem_eq, oleListdirFrom_eq path rest, streams, List.map_append, List.map_map]
    congr 1
    apply List.map_congr_left
    intro p _
    simp
end

theorem oleListdir_eq (root : StgEntries) : oleListdir root = streamPaths root := by
  unfold oleListdir streamPaths
  rw [oleListdirFrom_eq]
  simp

/-- StgEntries that contain a stream. -/
def activeE : StgEntries → List (PyStr × StgItem)
  | .nil => []
  | .cons n i rest => if itemStreams i = [] then activeE rest else (n, i) :: activeE rest

theorem activeE_names : ∀ (es : StgEntries) (x : PyStr × StgItem), x ∈ activeE es → x.1 ∈ es.names
  | .nil, x, h => by simp [activeE] at h
  | .cons n i rest, x, h => by
    rw [activeE] at h
    split at h
    · simp [StgEntries.names, activeE_names rest x h]
    · simp only [List.mem_cons] at h
      rcases h with rfl | h
      · simp [StgEntries.names]
      · simp [StgEntries.names, activeE_names rest x h]

theorem activeE_lookup : ∀ (es : StgEntries), WfEntries es → ∀ x ∈ activeE es, es.lookup x.1 = some x.2
  | .nil, _, x, h => by simp [activeE] at h
  | .cons n i rest, hw, x, h => by
    simp only [WfEntries] at hw
    have key : x ∈ activeE rest → (StgEntries.cons n i rest).lookup x.1 = some x.2 := by
      intro hx
      rw [StgEntries.lookup, if_neg]
      · exact activeE_lookup rest hw.2.2.2 x hx
      · intro e; exact hw.2.1 (e ▸ activeE_names rest x hx)
    rw [activeE] at h
    split at h
    · exact key h
    · simp only [List.mem_cons] at h
      rcases h with rfl | h
      · simp [StgEntries.lookup]
      · exact key h

theorem topItems_block (n : PyStr) (block : List (List PyStr)) (rest : List (List PyStr)) :
    ∀ Y, n ∈ Y → (∀ p ∈ block, ∃ r, p = n :: r) → topItems Y (block ++ rest) = topItems Y rest := by
  induction block with
  | nil => intro Y _ _; rfl
  | cons p ps ih =>
    intro Y hY hp
    obtain ⟨r, rfl⟩ := hp p (by simp)
    rw [List.cons_append, topItems, if_pos hY, ih Y hY (fun q hq => hp q (by simp [hq]))]

theorem topItems_eq : ∀ (es : StgEntries), WfEntries es → ∀ Y, (∀ n ∈ es.names, n ∉ Y) →
    topItems Y (streamPaths es) = (activeE es).map (·.1)
  | .nil, _, Y, _ => by simp [streamPaths, streams, topItems, activeE]
  | .cons n i rest, hw, Y, hY => by
    simp only [WfEntries] at hw
    have hp : streamPaths (.cons n i rest) =
        (itemStreams i).map (fun p => n :: p.1) ++ streamPaths rest := by
      simp only [streamPaths, streams, List.map_append, List.map_map]
      rfl
    rw [hp, activeE]
    cases hs : itemStreams i with
    | nil =>
      simp only [List.map_nil, List.nil_append, if_true]
      exact topItems_eq rest hw.2.2.2 Y (fun m hm => hY m (by simp [StgEntries.names, hm]))
    | cons p ps =>
      simp only [List.map_cons, List.cons_append, reduceCtorEq, if_false]
      have hn : n ∉ Y := hY n (by simp [StgEntries.names])
      rw [topItems, if_neg hn, topItems_block n _ _ (Y ++ [n]) (by simp)]
      · rw [topItems_eq rest hw.2.2.2]
        intro m hm
        simp only [List.mem_append, List.mem_singleton, not_or]
        refine ⟨hY m (by simp [StgEntries.names, hm]), ?_⟩
        intro e
        exact hw.2.1 (e ▸ hm)
      · intro q hq
        obtain ⟨q', _, rfl⟩ := List.mem_map.1 hq
        exact ⟨q'.1, rfl⟩

theorem filter_head : ∀ (es : StgEntries), WfEntries es → ∀ n i, es.lookup n = some i →
    (streamPaths es).filter (fun p => p.head? = some n) = (itemStreams i).map (fun p => n :: p.1)
  | .nil, _, n, i, h => by simp [StgEntries.lookup] at h
  | .cons m j rest, hw, n, i, h => by
    simp only [WfEntries] at hw
    have hp : streamPaths (.cons m j rest) =
        (itemStreams j).map (fun p => m :: p.1) ++ streamPaths rest := by
      simp only [streamPaths, streams, List.map_append, List.map_map]
      rfl
    rw [hp, List.filter_append]
    rw [StgEntries.lookup] at h
    by_cases hm : m = n
    · subst hm
      simp only [if_true, Option.some.injEq] at h
      subst h
      have e1 : ((itemStreams j).map (fun p => m :: p.1)).filter (fun p => p.head? = some m) =
          (itemStreams j).map (fun p => m :: p.1) := by
        rw [List.filter_eq_self]
        intro p hp
        obtain ⟨q, _, rfl⟩ := List.mem_map.1 hp
        simp
      have e2 : (streamPaths rest).filter (fun p => p.head? = some m) = [] := by
        rw [List.filter_eq_nil_iff]
        intro p hp
        obtain ⟨q, hq, rfl⟩ := List.mem_map.1 hp
        obtain ⟨m', r, h1, h2⟩ := streams_head rest q hq
        simp only [h1, List.head?_cons, Option.some.injEq, decide_eq_true_eq]
        intro e
        exact hw.2.1 (e ▸ h2)
      rw [e1, e2, List.append_nil]
    · rw [if_neg hm] at h
      have e1 : ((itemStreams j).map (fun p => m :: p.1)).filter (fun p => p.head? = some n) = [] := by
        rw [List.filter_eq_nil_iff]
        intro p hp
        obtain ⟨q, _, rfl⟩ := List.mem_map.1 hp
        simp [hm]
      rw [e1, List.nil_append, filter_head rest hw.2.2.2 n i h]

theorem walkNames_ok (f : PyStr → Option (Except PyErr (List (List PyStr)))) (g : PyStr → List (List PyStr))
    (ns : List PyStr) (h : ∀ n ∈ ns, f n = some (.ok (g n))) :
    walkNames f ns = some (.ok (ns.flatMap g)) := by
  induction ns with
  | nil => rfl
  | cons n ns ih =>
    rw [walkNames, h n (by simp), ih (fun m hm => h m (by simp [hm]))]
    simp

theorem filterMap_congr' {α β : Type} {f g : α → Option β} : ∀ {xs : List α}, (∀ a ∈ xs, f a = g a) →
    xs.filterMap f = xs.filterMap g
  | [], _ => rfl
  | x :: xs, h => by
    rw [List.filterMap_cons, List.filterMap_cons, h x (by simp), filterMap_congr' (fun a ha => h a (by simp [ha]))]

theorem filterMap_filter_of {α β : Type} (f : α → Option β) (p : α → Bool) (xs : List α)
    (h : ∀ a ∈ xs, p a = false → f a = none) : xs.filterMap f = (xs.filter p).filterMap f := by
  induction xs with
  | nil => rfl
  | cons x xs ih =>
    have ih := ih (fun a ha => h a (by simp [ha]))
    by_cases hp : p x = true
    · rw [List.filter_cons_of_pos hp, List.filterMap_cons, List.filterMap_cons, ih]
    · have hp : p x = false := by simpa using hp
      rw [List.filter_cons_of_neg (by simp [hp]), List.filterMap_cons, h x (by simp) hp, ih]

/-- The names below a storage at the top level. -/
theorem oleNames_top (root : StgEntries) (hw : WfEntries root) (n : PyStr) (es : StgEntries)
    (h : root.lookup n = some (.storage es)) :
    oleNames root [n] = .ok ((streamPaths es).filterMap fun p => if p.length = 1 then p.getLast? else none) := by
  unfold oleNames
  rw [if_neg (by simp)]
  simp only [openSegments, h, oleListdir_eq]
  congr 1
  rw [filterMap_filter_of _ (fun p => p.head? = some n), filter_head root hw n _ h, itemStreams,
    List.filterMap_map]
  · unfold streamPaths
    rw [List.filterMap_map]
    apply filterMap_congr'
    intro p hp
    have hne := streams_ne es p hp
    simp only [Function.comp]
    cases hp1 : p.1 with
    | nil => exact absurd hp1 hne
    | cons a r => simp [List.getLast?_cons_cons]
  · intro p _ hp
    rw [if_neg]
    rintro ⟨h1, h2⟩
    cases p with
    | nil => simp at h1
    | cons a r =>
      simp at h2
      simp [h2] at hp

theorem single_filter (n : PyStr) (ps : List (List PyStr)) (hne : ∀ p ∈ ps, p ≠ []) :
    (ps.filterMap fun p => if p.length = 1 then p.getLast? else none).flatMap (fun m => [[n, m]]) =
      (ps.map (n :: ·)).filter (fun p => p.length ≤ 2) := by
  induction ps with
  | nil => rfl
  | cons p ps ih =>
    have ih := ih (fun q hq => hne q (by simp [hq]))
    have hp := hne p (by simp)
    match p, hp with
    | [a], _ => simp [ih]
    | a :: b :: r, _ => simp [ih]

/-- The walk reaches the streams at depth one and two. -/
theorem oleLeafs_eq (root : StgEntries) (hw : WfEntries root) (depth : Nat) :
    oleLeafs root (depth + 2) [] = some (.ok ((streamPaths root).filter (fun p => p.length ≤ 2))) := by
  rw [oleLeafs]
  have htop : oleNames root [] = .ok ((activeE root).map (·.1)) := by
    unfold oleNames
    rw [if_pos rfl, oleListdir_eq, topItems_eq root hw [] (by simp)]
  rw [htop]
  dsimp only
  -- each entry
  have hitem : ∀ x ∈ activeE root,
      oleItem root (oleLeafs root (depth + 1)) ([] ++ [x.1]) =
      some (.ok (((itemStreams x.2).map (fun p => x.1 :: p.1)).filter (fun p => p.length ≤ 2))) := by
    intro x hx
    have hl := activeE_lookup root hw x hx
    obtain ⟨n, i⟩ := x
    dsimp only at hl ⊢
    simp only [List.nil_append, oleItem, oleGetType, openSegments, hl]
    cases i with
    | stream d => simp [itemStreams]
    | storage es =>
      dsimp only
      rw [oleLeafs, oleNames_top root hw n es hl]
      dsimp only
      rw [walkNames_ok _ (fun m => [[n, m]])]
      · rw [single_filter n (streamPaths es)]
        · simp only [itemStreams, streamPaths, List.map_map]
          rfl
        · intro p hp
          obtain ⟨q, hq, rfl⟩ := List.mem_map.1 hp
          exact streams_ne es q hq
      · intro m hm
        obtain ⟨p, hp, hpm⟩ := List.mem_filterMap.1 hm
        split at hpm
        · rename_i hlen
          have hpe : p = [m] := by
            match p, hlen with
            | [a], _ => simp at hpm; rw [hpm]
          subst hpe
          obtain ⟨q, hq, hq1⟩ := List.mem_map.1 hp
          have hwe : WfEntries es := by
            have : ∀ (es0 : StgEntries), WfEntries es0 → es0.lookup n = some (.storage es) → WfEntries es := by
              intro es0
              intro h0
              exact wf_lookup es0 h0 n es
            exact this root hw hl
          have ho := (openEntries_iff es hwe m [] q.2).2 (by rw [← hq1]; exact hq)
          simp only [List.singleton_append, oleItem, oleGetType, openSegments, hl]
          simp only [openSegments] at ho
          cases hlm : es.lookup m with
          | none => rw [hlm] at ho; simp at ho
          | some j =>
            rw [hlm] at ho
            simp only [openSegments, Except.ok.injEq] at ho
            subst ho
            rfl
        · simp at hpm
  have hsum : (streamPaths root).filter (fun p => p.length ≤ 2) =
      (activeE root).flatMap (fun x => ((itemStreams x.2).map (fun p => x.1 :: p.1)).filter (fun p => p.length ≤ 2)) := by
    clear hitem htop hw
    exact active_sum root
  rw [hsum]
  clear hsum htop
  generalize activeE root = xs at hitem
  induction xs with
  | nil => rfl
  | cons x xs ih =>
    rw [List.map_cons, walkNames]
    have hx := hitem x (by simp)
    rw [hx]
    rw [ih (fun y hy => hitem y (by simp [hy]))]
    simp
where
  wf_lookup : ∀ (es0 : StgEntries), WfEntries es0 → ∀ n es, es0.lookup n = some (.storage es) → WfEntries es
    | .nil, _, n, es, h => by simp [StgEntries.lookup] at h
    | .cons m j rest, hw, n, es, h => by
      simp only [WfEntries] at hw
      rw [StgEntries.lookup] at h
      split at h
      · simp only [Option.some.injEq] at h
        subst h
        simpa [WfItem] using hw.2.2.1
      · exact wf_lookup rest hw.2.2.2 n es h
  active_sum : ∀ (es : StgEntries), (streamPaths es).filter (fun p => p.length ≤ 2) =
      (activeE es).flatMap (fun x => ((itemStreams x.2).map (fun p => x.1 :: p.1)).filter (fun p => p.length ≤ 2))
    | .nil => by simp [streamPaths, streams, activeE]
    | .cons n i rest => by
      have hp : streamPaths (.cons n i rest) =
          (itemStreams i).map (fun p => n :: p.1) ++ streamPaths rest := by
        simp only [streamPaths, streams, List.map_append, List.map_map]
        rfl
      rw [hp, List.filter_append, active_sum rest, activeE]
      split
      · rename_i h; simp [h]
      · simp

end Hwp
