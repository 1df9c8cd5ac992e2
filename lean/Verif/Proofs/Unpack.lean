/- Lemmas about unpacking. -/
import Verif.Proofs.Storage
set_option linter.unusedSimpArgs false
namespace Hwp
open Spec

theorem replace05_eq (s : PyStr) : replace05 s = fileName s := by
  induction s with
  | nil => rfl
  | cons c cs ih =>
    unfold replace05 at ih ⊢
    rw [List.flatMap_cons, ih]
    by_cases h : c = 5
    · subst h; simp [fileName]
    · rw [if_neg h, fileName]
      · rfl
      · exact h

theorem fileName_plain (s : PyStr) (h : 5 ∉ s) : fileName s = s := by
  induction s with
  | nil => rfl
  | cons c cs ih =>
    simp only [List.mem_cons, not_or] at h
    rw [fileName, ih h.2]
    exact Ne.symm h.1

theorem map_replace_plain (base : List PyStr) (h : ∀ s ∈ base, 5 ∉ s) : base.map replace05 = base := by
  induction base with
  | nil => rfl
  | cons s ss ih =>
    rw [List.map_cons, replace05_eq, fileName_plain s (h s (by simp)), ih (fun x hx => h x (by simp [hx]))]

theorem fileName_ne {s t : PyStr} (ht : 0x5f ∉ t) (h : s ≠ t) : fileName s ≠ t := by
  intro he
  by_cases hs : 5 ∈ s
  · have : 0x5f ∈ fileName s := by
      clear he h
      induction s with
      | nil => cases hs
      | cons c cs ih =>
        by_cases hc : c = 5
        · subst hc; simp [fileName]
        · rw [fileName]
          · rcases List.mem_cons.1 hs with h | h
            · exact absurd h.symm hc
            · exact List.mem_cons_of_mem _ (ih h)
          · exact hc
    rw [he] at this
    exact ht this
  · rw [fileName_plain s hs] at he
    exact h he

theorem fileName_plainName {s : PyStr} (h : PlainName s) : PlainName (fileName s) :=
  ⟨fileName_ne (by decide) h.1, fileName_ne (by decide) h.2.1, fileName_ne (by decide) h.2.2⟩

/-- Plain segments are found where they say, if they are found. -/
theorem resolveFrom_plain (fs : FS) (p : List PyStr) (h : ∀ s ∈ p, PlainName s) (dir : List PyStr) :
    resolveFrom fs dir p = none ∨ resolveFrom fs dir p = some (dir ++ p) := by
  induction p generalizing dir with
  | nil => right; simp [resolveFrom]
  | cons s p ih =>
    have hs := h s (List.mem_cons_self)
    rw [resolveFrom]
    split
    · rw [if_neg hs.2.2, if_neg (by rintro (h | h); exact hs.2.1 h; exact hs.1 h)]
      have := ih (fun x hx => h x (List.mem_cons_of_mem _ hx)) (dir ++ [s])
      simpa using this
    · left; rfl

theorem resolve_plain (fs : FS) (p : List PyStr) (h : ∀ s ∈ p, PlainName s) : resolve fs p = none ∨ resolve fs p = some p := by
  simpa [resolve] using resolveFrom_plain fs p h []

theorem resolveFrom_dir (fs : FS) (p : List PyStr) (n : PyStr) (h : ∀ s ∈ p, PlainName s) (hn : PlainName n) (dir : List PyStr)
    (hd : ∀ q, q <+: p → fs (dir ++ q) = some .dir) : resolveFrom fs dir (p ++ [n]) = some (dir ++ (p ++ [n])) := by
  induction p generalizing dir with
  | nil =>
    have := hd [] (List.prefix_refl _)
    rw [List.append_nil] at this
    rw [List.nil_append, resolveFrom, if_pos this, if_neg hn.2.2, if_neg (by rintro (h | h); exact hn.2.1 h; exact hn.1 h), resolveFrom]
  | cons s p ih =>
    have hs := h s (List.mem_cons_self)
    have := hd [] (List.nil_prefix)
    rw [List.append_nil] at this
    rw [List.cons_append, resolveFrom, if_pos this, if_neg hs.2.2, if_neg (by rintro (h | h); exact hs.2.1 h; exact hs.1 h),
      ih (fun x hx => h x (List.mem_cons_of_mem _ hx))]
    · simp
    · intro q hq
      have := hd (s :: q) (by simpa using hq)
      simpa using this

theorem resolve_dir {fs : FS} {p : List PyStr} {n : PyStr} (h : ∀ s ∈ p, PlainName s) (hn : PlainName n) (hd : DirAt fs p) :
    resolve fs (p ++ [n]) = some (p ++ [n]) := by
  have := resolveFrom_dir fs p n h hn [] (by simpa [DirAt] using hd)
  simpa [resolve] using this

theorem dirAt_set {fs : FS} {p : List PyStr} {q : List PyStr} {n : Node} (hd : DirAt fs p) (h : ¬ q <+: p) : DirAt (fs.set q n) p := by
  intro r hr
  have : r ≠ q := by rintro rfl; exact h hr
  simp [FS.set, this, hd r hr]

theorem dirAt_child {fs : FS} {p : List PyStr} {n : PyStr} (hd : DirAt fs p) : DirAt (fs.set (p ++ [n]) .dir) (p ++ [n]) := by
  intro r hr
  rw [List.prefix_concat_iff] at hr
  rcases hr with rfl | hr
  · simp [FS.set]
  · have : r ≠ p ++ [n] := by
      rintro rfl
      have := hr.length_le
      simp at this
      omega
    simp [FS.set, this, hd r hr]

theorem not_prefix_of_longer {p : List PyStr} {n : PyStr} {q : List PyStr} : ¬ (p ++ n :: q) <+: p := by
  intro h
  have := h.length_le
  simp at this
  omega

mutual
theorem unpackItem_spec (i : StgItem) (hu : UnpackableItem i) (name : PyStr) (base : List PyStr) (fs : FS)
    (hname : ∀ es, i = .storage es → 5 ∉ name) (hplain : PlainName name)
    (hbase : ∀ s ∈ base, 5 ∉ s ∧ PlainName s) (hdir : DirAt fs base)
    (hfree : ∀ q, fs (base ++ fileName name :: q) = none) :
    ∃ fs', unpackItem fs (base ++ [name]) i = (fs', none) ∧
      (∀ q, fs' (base ++ fileName name :: q) = itemNode i q) ∧
      (∀ p, (∀ q, p ≠ base ++ fileName name :: q) → fs' p = fs p) := by
  match i, hu, hname with
  | .stream d, _, _ =>
    refine ⟨fs.set (base ++ [fileName name]) (.file d), ?_, ?_, ?_⟩
    · rw [unpackItem, List.map_append, map_replace_plain base (fun s hs => (hbase s hs).1), List.map_singleton, replace05_eq]
      unfold writeFile
      rw [resolve_dir (fun s hs => (hbase s hs).2) (fileName_plainName hplain) hdir]
      dsimp only
      rw [if_neg (by rw [hfree []]; simp)]
    · intro q
      cases q with
      | nil => simp [FS.set, itemNode]
      | cons a r => simp [FS.set, itemNode, hfree]
    · intro p hp
      have := hp []
      simp [FS.set, this]
  | .storage es, hu, hname =>
    have hname := hname es rfl
    have hn := fileName_plain name hname
    have hu : Unpackable es := by simpa [UnpackableItem] using hu
    rw [hn] at hfree ⊢
    have hnone := hfree []
    have hres := resolve_dir (fun s hs => (hbase s hs).2) hplain hdir
    have hmk : mkdir fs (base ++ [name]) = (fs.set (base ++ [name]) .dir, none) := by
      unfold mkdir
      rw [hres]
      dsimp only
      rw [if_pos hnone]
    have hex : pathExists fs (base ++ [name]) = false := by
      unfold pathExists
      rw [hres]
      simp [hnone]
    obtain ⟨fs', h1, h2, h3⟩ := unpack_spec es hu (base ++ [name]) (fs.set (base ++ [name]) .dir)
      (by
        intro s hs
        simp only [List.mem_append, List.mem_singleton] at hs
        rcases hs with hs | rfl
        · exact hbase s hs
        · exact ⟨hname, hplain⟩)
      (dirAt_child hdir)
      (by
        intro n _ q
        have := hfree (n :: q)
        simp [FS.set, this])
    refine ⟨fs', ?_, ?_, ?_⟩
    · rw [unpackItem]
      simp only [hex, Bool.false_eq_true, if_false, hmk, andThen]
      exact h1
    · intro q
      cases q with
      | nil =>
        rw [itemNode, h3]
        · simp [FS.set]
        · intro m _ q hc
          have := congrArg List.length hc
          simp at this
      | cons m r =>
        rw [itemNode]
        by_cases hm : m ∈ fileNames es
        · have := h2 m r hm
          simpa using this
        · rw [h3]
          · have := hfree (m :: r)
            simp [FS.set, this]
            exact (nodeAt_none es m hm r).symm
          · intro m' hm' q hc
            simp at hc
            exact hm (hc.1 ▸ hm')
    · intro p hp
      rw [h3]
      · have := hp []
        simp [FS.set, this]
      · intro m hm q hc
        exact hp (m :: q) (by simpa using hc)
termination_by sizeOf i
theorem unpack_spec (es : StgEntries) (hu : Unpackable es) (base : List PyStr) (fs : FS)
    (hbase : ∀ s ∈ base, 5 ∉ s ∧ PlainName s) (hdir : DirAt fs base)
    (hfree : ∀ n ∈ fileNames es, ∀ q, fs (base ++ n :: q) = none) :
    ∃ fs', unpack fs base es = (fs', none) ∧
      (∀ m q, m ∈ fileNames es → fs' (base ++ m :: q) = nodeAt es m q) ∧
      (∀ p, (∀ m ∈ fileNames es, ∀ q, p ≠ base ++ m :: q) → fs' p = fs p) := by
  match es, hu with
  | .nil, _ => exact ⟨fs, rfl, by simp [fileNames, StgEntries.names], fun _ _ => rfl⟩
  | .cons name i rest, hu =>
    simp only [Unpackable] at hu
    obtain ⟨hu0, hu1, hu2, hu3, hu4⟩ := hu
    have hnames : fileNames (.cons name i rest) = fileName name :: fileNames rest := rfl
    obtain ⟨fs1, h1, h2, h3⟩ := unpackItem_spec i hu3 name base fs (by rintro es rfl; exact hu2) hu0 hbase hdir
      (fun q => hfree _ (by simp [hnames]) q)
    obtain ⟨fs2, g1, g2, g3⟩ := unpack_spec rest hu4 base fs1 hbase
      (by
        intro r hr
        rw [h3]
        · exact hdir r hr
        · intro q hc
          rw [hc] at hr
          exact not_prefix_of_longer hr)
      (by
        intro n hn q
        rw [h3]
        · exact hfree n (by simp [hnames, hn]) q
        · intro q' hc
          simp at hc
          exact hu1 (hc.1 ▸ hn))
    refine ⟨fs2, ?_, ?_, ?_⟩
    · rw [unpack]
      simp only [h1, andThen]
      exact g1
    · intro m q hm
      rw [hnames, List.mem_cons] at hm
      rw [nodeAt]
      by_cases he : fileName name = m
      · rw [if_pos he, ← he, g3, h2]
        intro m' hm' q' hc
        simp at hc
        exact hu1 (hc.1 ▸ hm')
      · rw [if_neg he]
        rcases hm with hm | hm
        · exact absurd hm.symm he
        · exact g2 m q hm
    · intro p hp
      rw [g3, h3]
      · intro q; exact hp _ (by simp [hnames]) q
      · intro m hm q; exact hp m (by simp [hnames, hm]) q
termination_by sizeOf es
theorem nodeAt_none (es : StgEntries) (m : PyStr) (hm : m ∉ fileNames es) (r : List PyStr) :
    nodeAt es m r = none := by
  match es, hm with
  | .nil, _ => rfl
  | .cons n i rest, hm =>
    have hnames : fileNames (.cons n i rest) = fileName n :: fileNames rest := rfl
    rw [hnames, List.mem_cons, not_or] at hm
    rw [nodeAt, if_neg (Ne.symm hm.1)]
    exact nodeAt_none rest m hm.2 r
termination_by sizeOf es
end

/-- The file of a stream. -/
def fileAt (p : List PyStr) : List PyStr := p.map fileName

mutual
theorem itemNode_stream : ∀ (i : StgItem), UnpackableItem i → ∀ p d, (p, d) ∈ itemStreams i →
    itemNode i (fileAt p) = some (.file d)
  | .stream d', _, p, d, h => by
    simp [itemStreams] at h
    obtain ⟨rfl, rfl⟩ := h
    simp [fileAt, itemNode]
  | .storage es, hu, p, d, h => by
    rw [itemStreams] at h
    obtain ⟨n, r, h1, h2⟩ := streams_head es _ h
    dsimp only at h1
    subst h1
    have := nodeAt_stream es (by simpa [UnpackableItem] using hu) n r d h
    simpa [fileAt, itemNode] using this
theorem nodeAt_stream : ∀ (es : StgEntries), Unpackable es → ∀ n r d, (n :: r, d) ∈ streams es →
    nodeAt es (fileName n) (fileAt r) = some (.file d)
  | .nil, _, n, r, d, h => by simp [streams] at h
  | .cons m i rest, hu, n, r, d, h => by
    simp only [Unpackable] at hu
    rw [streams, List.mem_append] at h
    rw [nodeAt]
    rcases h with h | h
    · obtain ⟨q, hq, e⟩ := List.mem_map.1 h
      simp only [Prod.mk.injEq, List.cons.injEq] at e
      obtain ⟨⟨e1, e2⟩, e3⟩ := e
      subst e1 e2 e3
      rw [if_pos rfl]
      exact itemNode_stream i hu.2.2.2.1 q.1 q.2 hq
    · obtain ⟨n', r', h1, h2⟩ := streams_head rest _ h
      simp only [List.cons.injEq] at h1
      rw [← h1.1] at h2
      rw [if_neg]
      · exact nodeAt_stream rest hu.2.2.2.2 n r d h
      · intro e
        apply hu.2.1
        rw [e]
        exact List.mem_map.2 ⟨n, h2, rfl⟩
end

/-! ### Nothing outside -/

/-- Writing to a path of plain segments changes nothing elsewhere. -/
theorem writeFile_only (fs : FS) (p : List PyStr) (d : Bytes) (h : ∀ s ∈ p, PlainName s) (r : List PyStr) (hr : r ≠ p) :
    (writeFile fs p d).1 r = fs r := by
  unfold writeFile
  rcases resolve_plain fs p h with h | h <;> rw [h]
  dsimp only
  split
  · rfl
  · simp [FS.set, hr]

theorem mkdir_only (fs : FS) (p : List PyStr) (h : ∀ s ∈ p, PlainName s) (r : List PyStr) (hr : r ≠ p) :
    (mkdir fs p).1 r = fs r := by
  unfold mkdir
  rcases resolve_plain fs p h with h | h <;> rw [h]
  dsimp only
  split
  · simp [FS.set, hr]
  · rfl

theorem map_replace (base p : List PyStr) (hb : ∀ s ∈ base, 5 ∉ s) : (base ++ p).map replace05 = base ++ p.map fileName := by
  rw [List.map_append, map_replace_plain base hb]
  congr 1
  exact List.map_congr_left (fun s _ => replace05_eq s)

mutual
theorem unpackItem_only (i : StgItem) (hu : PlainItem i) (base : List PyStr) (hbase : ∀ s ∈ base, 5 ∉ s ∧ PlainName s)
    (path : List PyStr) (hpath : ∀ s ∈ path, PlainName s) (fs : FS) (r : List PyStr) (hr : ¬ base <+: r) :
    (unpackItem fs (base ++ path) i).1 r = fs r := by
  match i, hu with
  | .stream d, _ =>
    rw [unpackItem, map_replace base path (fun s hs => (hbase s hs).1)]
    apply writeFile_only
    · intro s hs
      rcases List.mem_append.1 hs with h | h
      · exact (hbase s h).2
      · obtain ⟨t, ht, rfl⟩ := List.mem_map.1 h
        exact fileName_plainName (hpath t ht)
    · rintro rfl
      exact hr (List.prefix_append _ _)
  | .storage es, hu =>
    have hu : PlainEntries es := by simpa [PlainItem] using hu
    have hmk : ∀ r, ¬ base <+: r → (if pathExists fs (base ++ path) then (fs, none) else mkdir fs (base ++ path)).1 r = fs r := by
      intro r hr
      split
      · rfl
      · apply mkdir_only
        · intro s hs
          rcases List.mem_append.1 hs with h | h
          · exact (hbase s h).2
          · exact hpath s h
        · rintro rfl
          exact hr (List.prefix_append _ _)
    rw [unpackItem]
    unfold andThen
    split
    · rename_i s hs
      rw [unpack_only es hu base hbase path hpath s r hr, show s = _ from (congrArg Prod.fst hs).symm]
      exact hmk r hr
    · rename_i s e hs
      rw [show s = _ from (congrArg Prod.fst hs).symm]
      exact hmk r hr
termination_by sizeOf i
theorem unpack_only (es : StgEntries) (hu : PlainEntries es) (base : List PyStr) (hbase : ∀ s ∈ base, 5 ∉ s ∧ PlainName s)
    (path : List PyStr) (hpath : ∀ s ∈ path, PlainName s) (fs : FS) (r : List PyStr) (hr : ¬ base <+: r) :
    (unpack fs (base ++ path) es).1 r = fs r := by
  match es, hu with
  | .nil, _ => rfl
  | .cons name i rest, hu =>
    simp only [PlainEntries] at hu
    have h1 : ∀ fs, (unpackItem fs (base ++ path ++ [name]) i).1 r = fs r := by
      intro fs
      rw [List.append_assoc]
      apply unpackItem_only i hu.2.1 base hbase _ _ fs r hr
      intro s hs
      rcases List.mem_append.1 hs with h | h
      · exact hpath s h
      · rw [List.mem_singleton.1 h]; exact hu.1
    rw [unpack]
    unfold andThen
    split
    · rename_i s hs
      rw [unpack_only rest hu.2.2 base hbase path hpath s r hr, show s = _ from (congrArg Prod.fst hs).symm]
      exact h1 fs
    · rename_i s e hs
      rw [show s = _ from (congrArg Prod.fst hs).symm]
      exact h1 fs
termination_by sizeOf es
end

end Hwp
