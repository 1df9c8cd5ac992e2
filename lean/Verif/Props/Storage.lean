/-
C44-C46: enumeration of storages, OLE listing and unpacking.
-/
import Verif.Proofs.Ole
import Verif.Proofs.Unpack
import Mathlib.Data.List.Nodup
set_option linter.unusedSimpArgs false
namespace Hwp.Props
open Hwp Spec

/-! ### C44 -/

/-- The enumeration reports the paths of the streams, in storage order, and nothing else. -/
theorem C44_leafs_are_the_streams (es : StgEntries) :
    leafs [] es = (streams es).map (fun p => pathText p.1) := by
  simpa using leafs_eq [] es

/-- Each stream is reported once. -/
theorem C44_leafs_nodup (es : StgEntries) (hw : WfEntries es) : (leafs [] es).Nodup := by
  rw [C44_leafs_are_the_streams]
  have h := streams_nodup es hw
  have hm : (streams es).map (fun p => pathText p.1) = ((streams es).map Prod.fst).map pathText := by
    simp
  rw [hm]
  refine List.Nodup.map_on ?_ h
  intro a ha b hb hab
  obtain ⟨x, hx, rfl⟩ := List.mem_map.1 ha
  obtain ⟨y, hy, rfl⟩ := List.mem_map.1 hb
  have nx := streams_ne es x hx
  have ny := streams_ne es y hy
  exact pathText_inj nx ny (streams_plain es hw x hx) (streams_plain es hw y hy) hab

/-- A path is reported exactly when opening it gives a stream. -/
theorem C44_reported_iff_opens (es : StgEntries) (hw : WfEntries es) (path : PyStr) :
    path ∈ leafs [] es ↔ ∃ d, openItem (.storage es) path = .ok (.stream d) := by
  rw [C44_leafs_are_the_streams]
  constructor
  · intro h
    obtain ⟨⟨q, d⟩, hx, rfl⟩ := List.mem_map.1 h
    obtain ⟨n, r, h1, _⟩ := streams_head es _ hx
    dsimp only at h1
    subst h1
    refine ⟨d, ?_⟩
    unfold openItem
    dsimp only
    rw [splitSlash_pathText _ (streams_ne es _ hx) (streams_plain es hw _ hx)]
    exact (openEntries_iff es hw n r d).2 hx
  · rintro ⟨d, hd⟩
    unfold openItem at hd
    have hne := splitSlash_ne path
    have hp := pathText_splitSlash path
    match hs : splitSlash path, hne with
    | n :: r, _ =>
      rw [hs] at hd hp
      exact List.mem_map.2 ⟨(n :: r, d), (openEntries_iff es hw n r d).1 hd, hp⟩

/-- Opening a reported path returns the contents of the stream it was reported for. -/
theorem C44_open_reported (es : StgEntries) (hw : WfEntries es) (q : List PyStr) (d : Bytes)
    (h : (q, d) ∈ streams es) : openItem (.storage es) (pathText q) = .ok (.stream d) := by
  obtain ⟨n, r, h1, _⟩ := streams_head es _ h
  dsimp only at h1
  subst h1
  unfold openItem
  rw [splitSlash_pathText _ (streams_ne es _ h) (streams_plain es hw _ h)]
  exact (openEntries_iff es hw n r d).2 h

/-- `{'A': {'x': b'\1', 'y': b'\2'}, 'x': b'\3'}`. -/
def exStorage : StgEntries :=
  .cons [0x41] (.storage (.cons [0x78] (.stream [1]) (.cons [0x79] (.stream [2]) .nil)))
    (.cons [0x78] (.stream [3]) .nil)

example : leafs [] exStorage = [[0x41, 0x2f, 0x78], [0x41, 0x2f, 0x79], [0x78]] := by decide +kernel
example : WfEntries exStorage := by
  simp [exStorage, WfEntries, WfItem, StgEntries.names]
example : openItem (.storage exStorage) [0x41, 0x2f, 0x79] = .ok (.stream [2]) := rfl
example : openItem (.storage exStorage) [0x41, 0x2f, 0x7a] = .error .keyError := rfl
example : openItem (.storage exStorage) [0x78, 0x2f, 0x7a] = .error .typeError := rfl

/-! ### C45 -/

/-- What a walk reaches: exactly the streams at depth at most two. -/
theorem C45_walk_reaches_depth_two (root : StgEntries) (hw : WfEntries root) (depth : Nat) :
    oleLeafs root (depth + 2) [] = some (.ok (((streams root).map Prod.fst).filter (fun p => p.length ≤ 2))) :=
  oleLeafs_eq root hw depth

/-- `{'A': {'B': {'x': b'\7'}}}`. -/
def exDeep : StgEntries :=
  .cons [0x41] (.storage (.cons [0x42] (.storage (.cons [0x78] (.stream [7]) .nil)) .nil)) .nil

/-- **Violated**: a stream inside a storage that is inside a storage can be opened, but a
walk does not reach it: `olefile_listdir` only lists streams below the top level. -/
theorem C45_deep_stream_not_reached :
    openSegments (.storage exDeep) [[0x41], [0x42], [0x78]] = .ok (.stream [7]) ∧
    ∀ depth, oleLeafs exDeep (depth + 2) [] = some (.ok []) := by
  refine ⟨rfl, fun depth => ?_⟩
  rw [C45_walk_reaches_depth_two exDeep (by simp [exDeep, WfEntries, WfItem, StgEntries.names])]
  rfl

/-- If no storage is nested in another one, the walk reports every stream, each once.
Missing from the claim: streams of deeper storages (not reached, see above). -/
theorem C45_walk_complete_partial (root : StgEntries) (hw : WfEntries root)
    (hflat : ∀ p ∈ streams root, p.1.length ≤ 2) (depth : Nat) :
    oleLeafs root (depth + 2) [] = some (.ok ((streams root).map Prod.fst)) := by
  rw [C45_walk_reaches_depth_two root hw depth, List.filter_eq_self.2]
  intro p hp
  obtain ⟨x, hx, rfl⟩ := List.mem_map.1 hp
  simpa using hflat x hx

/-- Everything a walk reports can be opened as a stream. -/
theorem C45_walk_sound (root : StgEntries) (hw : WfEntries root) (depth : Nat) (ps : List (List PyStr))
    (h : oleLeafs root (depth + 2) [] = some (.ok ps)) (p : List PyStr) (hp : p ∈ ps) :
    ∃ d, openSegments (.storage root) p = .ok (.stream d) := by
  rw [C45_walk_reaches_depth_two root hw depth] at h
  simp only [Option.some.injEq, Except.ok.injEq] at h
  subst h
  obtain ⟨hp, _⟩ := List.mem_filter.1 hp
  obtain ⟨⟨q, d⟩, hx, rfl⟩ := List.mem_map.1 hp
  obtain ⟨n, r, h1, _⟩ := streams_head root _ hx
  dsimp only at h1
  subst h1
  exact ⟨d, (openEntries_iff root hw n r d).2 hx⟩

example : oleLeafs exStorage 2 [] = some (.ok [[[0x41], [0x78]], [[0x41], [0x79]], [[0x78]]]) := rfl
example : oleLeafs exStorage 1 [] = none := rfl

/-! ### C46 -/

/-- A file system with one empty directory 'o' in the root. -/
def exFS : FS := fun p => if p = [[0x6f]] ∨ p = [] then some .dir else none

/-- `{'\x05S': b'\1', '_05S': b'\2'}`. -/
def exCollide : StgEntries := .cons [5, 0x53] (.stream [1]) (.cons [0x5f, 0x30, 0x35, 0x53] (.stream [2]) .nil)

/-- **Violated**: the names '\x05S' and '_05S' are unpacked to the same file; the first
stream is lost without an error. -/
theorem C46_collision :
    WfEntries exCollide ∧ ∃ fs, unpack exFS [[0x6f]] exCollide = (fs, none) ∧
      fs [[0x6f], [0x5f, 0x30, 0x35, 0x53]] = some (.file [2]) ∧
      fs [[0x6f], [5, 0x53]] = none := by
  refine ⟨by simp [exCollide, WfEntries, WfItem, StgEntries.names], _, rfl, ?_, ?_⟩
  · rfl
  · rfl

/-- `{'\x05D': {'x': b'\1'}}`. -/
def exStorage05 : StgEntries := .cons [5, 0x44] (.storage (.cons [0x78] (.stream [1]) .nil)) .nil

/-- **Violated**: a storage with control character 5 in its name cannot be unpacked: its
directory is created under the unchanged name and its files are looked for under the
replaced one. -/
theorem C46_storage_name_fails :
    WfEntries exStorage05 ∧ (unpack exFS [[0x6f]] exStorage05).2 = some .ioError := by
  refine ⟨by simp [exStorage05, WfEntries, WfItem, StgEntries.names], rfl⟩

/-- Unpacking into a directory where none of the file names exist yet creates exactly the
tree of the storage: every node below the directory is the one of the storage tree, and
everything else is unchanged. Missing from the claim: sibling names that only differ by
'\x05' against '_05', and storages (or a target directory) with '\x05' in the name;
see the two counterexamples; and the names '.' and '..' (C88_parent_directory). -/
theorem C46_unpack_partial (es : StgEntries) (hu : Unpackable es) (base : List PyStr) (fs : FS)
    (hbase : ∀ s ∈ base, 5 ∉ s ∧ PlainName s) (hdir : DirAt fs base)
    (hfree : ∀ n ∈ fileNames es, ∀ q, fs (base ++ n :: q) = none) :
    ∃ fs', unpack fs base es = (fs', none) ∧
      (∀ m q, m ∈ fileNames es → fs' (base ++ m :: q) = nodeAt es m q) ∧
      (∀ p, (∀ m ∈ fileNames es, ∀ q, p ≠ base ++ m :: q) → fs' p = fs p) :=
  unpack_spec es hu base fs hbase hdir hfree

/-- In particular each stream is found, with its contents, in the file with its path. -/
theorem C46_streams_written_partial (es : StgEntries) (hu : Unpackable es) (base : List PyStr) (fs : FS)
    (hbase : ∀ s ∈ base, 5 ∉ s ∧ PlainName s) (hdir : DirAt fs base)
    (hfree : ∀ n ∈ fileNames es, ∀ q, fs (base ++ n :: q) = none) :
    ∃ fs', unpack fs base es = (fs', none) ∧
      ∀ p d, (p, d) ∈ streams es → fs' (base ++ p.map fileName) = some (.file d) := by
  obtain ⟨fs', h1, h2, _⟩ := unpack_spec es hu base fs hbase hdir hfree
  refine ⟨fs', h1, ?_⟩
  intro p d hp
  obtain ⟨n, r, e, hn⟩ := streams_head es _ hp
  dsimp only at e
  subst e
  rw [List.map_cons, h2 _ _ (List.mem_map.2 ⟨n, hn, rfl⟩)]
  exact nodeAt_stream es hu n r d hp

example : Unpackable (.cons [5, 0x53] (.stream [1]) exStorage) := by
  simp [exStorage, Unpackable, UnpackableItem, fileNames, StgEntries.names, fileName, PlainName]
example : ∃ fs, unpack exFS [[0x6f]] (.cons [5, 0x53] (.stream [1]) exStorage) = (fs, none) ∧
    fs [[0x6f], [0x5f, 0x30, 0x35, 0x53]] = some (.file [1]) ∧
    fs [[0x6f], [0x41]] = some .dir ∧ fs [[0x6f], [0x41], [0x79]] = some (.file [2]) :=
  ⟨_, rfl, rfl, rfl, rfl⟩
/-- Unpacking over an existing directory fails for a stream and is accepted for a storage. -/
example : (unpack (exFS.set [[0x6f], [0x78]] .dir) [[0x6f]] exStorage).2 = some .ioError := rfl

/-! ### C88 -/

/-- Unpacking changes nothing outside the output directory, whatever happens. Missing from the claim: items
with the name '.' or '..'; see the counterexample. -/
theorem C88_only_below_partial (es : StgEntries) (hp : PlainEntries es) (base : List PyStr) (fs : FS)
    (hbase : ∀ s ∈ base, 5 ∉ s ∧ PlainName s) (p : List PyStr) (h : ¬ base <+: p) :
    (unpack fs base es).1 p = fs p := by
  have := unpack_only es hp base hbase [] (by simp) fs p h
  simpa using this

/-- `{'..': {'x': b'\1'}}`. -/
def exParent : StgEntries := .cons [0x2e, 0x2e] (.storage (.cons [0x78] (.stream [1]) .nil)) .nil

/-- **Violated**: the streams of a storage with the name '..' are written next to the output directory, and
replace the files there, without an exception. -/
theorem C88_parent_directory :
    WfEntries exParent ∧ (∃ fs, unpack exFS [[0x6f]] exParent = (fs, none) ∧ fs [[0x78]] = some (.file [1]) ∧ exFS [[0x78]] = none) ∧
    (unpack (exFS.set [[0x78]] (.file [9])) [[0x6f]] exParent).1 [[0x78]] = some (.file [1]) := by
  refine ⟨by simp [exParent, WfEntries, WfItem, StgEntries.names], ⟨_, rfl, rfl, rfl⟩, rfl⟩

/-- **Violated**: the names of an OLE file are not checked, so that such a storage is reached in the file. -/
theorem C88_parent_directory_ole :
    oleLeafs exParent 2 [] = some (.ok [[[0x2e, 0x2e], [0x78]]]) := rfl

example : PlainEntries (.cons [5, 0x53] (.stream [1]) exStorage) ∧ ¬ PlainEntries exParent := by
  simp [exStorage, exParent, PlainEntries, PlainItem, PlainName]
/-- A storage with control character 5 in its name, which raises, changes nothing outside either. -/
example : (unpack exFS [[0x6f]] exStorage05).1 [[0x6f], [5, 0x44]] = some .dir ∧ (unpack exFS [[0x6f]] exStorage05).1 [[0x78]] = none :=
  ⟨rfl, rfl⟩

end Hwp.Props
