/-
C104: a directory into which a document was unpacked, used as a storage.
-/
import Verif.Proofs.FsStorage
import Verif.Props.Storage
set_option autoImplicit false
set_option linter.unusedSimpArgs false
set_option linter.unusedVariables false
set_option Elab.async false
namespace Hwp.Props
open Hwp Spec

/-- Whatever is opened below a directory into which a storage was unpacked is what the storage has under its file
names: the same data, the same names in sorted order, or the same exception. -/
theorem C104_renamed (es : StgEntries) (hu : Unpackable es) (base : List PyStr) (fs : FS)
    (hbase : ∀ s ∈ base, 5 ∉ s ∧ PlainName s) (hdir : DirAt fs base) (hfree : ∀ n q, fs (base ++ n :: q) = none) :
    ∃ fs', unpack fs base es = (fs', none) ∧
      ∀ ls, ListsDirs ls fs' → ∀ path : List PyStr, (∀ s ∈ path, PlainName s ∧ 0x2f ∉ s) →
        SameResult ls fs' (fsOpen fs' (.storage base) path) (openSegments (.storage (renamed es)) path) := by
  obtain ⟨fs', h1, h2, h3⟩ := unpack_tree es hu base fs hbase hdir hfree
  refine ⟨fs', h1, fun ls hls path hp => ?_⟩
  have hb : ∀ s ∈ base, PlainName s := fun s hs => (hbase s hs).2
  have := fsOpen_same ls fs' hls path base (.storage es) hp hb (resolve_self hb h3) h2 (by simpa [UnpackableItem] using hu)
    (fun _ _ => h3)
  simpa [renamedItem] using this

/-- If no name contains control character 5, the directory shows what the storage shows, under the same names.
Missing from the claim: names with control character 5 (see `C104_control_names`), and names such as '..' which are
not names of items (see `C104_parent`). -/
theorem C104_same_partial (es : StgEntries) (hu : Unpackable es) (h5 : NoControl es) (base : List PyStr) (fs : FS)
    (hbase : ∀ s ∈ base, 5 ∉ s ∧ PlainName s) (hdir : DirAt fs base) (hfree : ∀ n q, fs (base ++ n :: q) = none) :
    ∃ fs', unpack fs base es = (fs', none) ∧
      ∀ ls, ListsDirs ls fs' → ∀ path : List PyStr, (∀ s ∈ path, PlainName s ∧ 0x2f ∉ s) →
        SameResult ls fs' (fsOpen fs' (.storage base) path) (openSegments (.storage es) path) := by
  have := C104_renamed es hu base fs hbase hdir hfree
  rwa [renamed_same es h5] at this

/-- Walking through the directory reports each stream once, under its file names. -/
theorem C104_leaves (es : StgEntries) (hu : Unpackable es) (hw : WfEntries es) (base : List PyStr) (fs : FS)
    (hbase : ∀ s ∈ base, 5 ∉ s ∧ PlainName s) (hdir : DirAt fs base) (hfree : ∀ n q, fs (base ++ n :: q) = none) :
    ∃ fs', unpack fs base es = (fs', none) ∧
      ∀ ls, ListsDirs ls fs' → ∀ depth, stgDepth es < depth →
        ∃ xs, fsLeafs ls fs' depth base [] = some (.ok xs) ∧
          xs.Perm ((streams (renamed es)).map fun x => pathText x.1) := by
  obtain ⟨fs', h1, h2, h3⟩ := unpack_tree es hu base fs hbase hdir hfree
  refine ⟨fs', h1, fun ls hls depth hd => ?_⟩
  obtain ⟨xs, h4, h5⟩ := fsLeafs_perm ls fs' hls depth base es [] hd hu hw (fun s hs => (hbase s hs).2) h3 h2
  refine ⟨xs, h4, ?_⟩
  rwa [C44_leafs_are_the_streams] at h5

/-- **Violated**: a name with control character 5, such as that of the summary information, is never found in the
unpacked directory. -/
theorem C104_control_names (es : StgEntries) (hu : Unpackable es) (base : List PyStr) (fs : FS)
    (hbase : ∀ s ∈ base, 5 ∉ s ∧ PlainName s) (hdir : DirAt fs base) (hfree : ∀ n q, fs (base ++ n :: q) = none) :
    ∃ fs', unpack fs base es = (fs', none) ∧
      ∀ name : PyStr, 5 ∈ name → PlainName name → 0x2f ∉ name → fsGet fs' base name = .error .keyError := by
  obtain ⟨fs', h1, h2, h3⟩ := unpack_tree es hu base fs hbase hdir hfree
  refine ⟨fs', h1, fun name h5 hp hs => ?_⟩
  rw [fsGet_plain (fun s hs => (hbase s hs).2) h3 hp hs, h2 [name], itemNode, nodeAt_none]
  intro hm
  obtain ⟨n, _, rfl⟩ := List.mem_map.1 hm
  exact fileName_no5 n h5

/-- The summary information of a document: it is in the storage, and it is not in the unpacked directory. -/
theorem C104_summary (d : Bytes) :
    Unpackable (.cons (lit "\x05HwpSummaryInformation") (.stream d) .nil) ∧
    ∃ fs', unpack exFS [[0x6f]] (.cons (lit "\x05HwpSummaryInformation") (.stream d) .nil) = (fs', none) ∧
      openSegments (.storage (.cons (lit "\x05HwpSummaryInformation") (.stream d) .nil)) [lit "\x05HwpSummaryInformation"] = .ok (.stream d) ∧
      fsOpen fs' (.storage [[0x6f]]) [lit "\x05HwpSummaryInformation"] = .error .keyError ∧
      fsOpen fs' (.storage [[0x6f]]) [lit "_05HwpSummaryInformation"] = .ok (.stream [[0x6f], lit "_05HwpSummaryInformation"]) := by
  refine ⟨?_, _, rfl, ?_, ?_, ?_⟩
  · simp only [Unpackable, UnpackableItem, fileNames, StgEntries.names, List.map_nil, List.not_mem_nil, not_false_eq_true, true_and, and_true]
    decide +kernel
  · rfl
  · rfl
  · rfl

/-- The names listed in a directory are those of its items: each of them can be opened, and nothing else can
be, by a plain name. -/
theorem C104_listing (ls : List PyStr → List PyStr) (fs : FS) (hls : ListsDirs ls fs) (p : List PyStr)
    (hp : ∀ s ∈ p, PlainName s) (hd : DirAt fs p) :
    ∃ names, fsIter ls fs p = .ok names ∧ names.Pairwise (· < ·) ∧
      ∀ n, PlainName n → 0x2f ∉ n → (n ∈ names ↔ ∃ i, fsGet fs p n = .ok i) ∧ (n ∉ names ↔ fsGet fs p n = .error .keyError) := by
  obtain ⟨h1, h2⟩ := hls p p (resolve_self hp hd) (hd p List.prefix_rfl)
  refine ⟨_, fsIter_dir hp hd, sortNames_sorted _ h1, fun n hn hs => ?_⟩
  rw [sortNames_mem, h2, fsGet_plain hp hd hn hs]
  cases hf : fs (p ++ [n]) with
  | none => simp
  | some x => cases x <;> simp

theorem resolveFrom_through (fs : FS) (a : List PyStr) : ∀ (dir rest : List PyStr), (∀ s ∈ a, PlainName s) → (∀ q, q <+: a → fs (dir ++ q) = some .dir) →
    resolveFrom fs dir (a ++ rest) = resolveFrom fs (dir ++ a) rest := by
  induction a with
  | nil => intro dir rest _ _; simp
  | cons s a ih =>
    intro dir rest ha hq
    have hs := ha s (by simp)
    have h0 := hq [] List.nil_prefix
    rw [List.append_nil] at h0
    rw [List.cons_append, resolveFrom, if_pos h0, if_neg hs.2.2, if_neg (by rintro (h | h); exact hs.2.1 h; exact hs.1 h),
      ih (dir ++ [s]) rest (fun x hx => ha x (by simp [hx])) (by
        intro q hq'
        have := hq (s :: q) (by simpa using hq')
        simpa using this)]
    simp

/-- There is nothing below a file, or below a name that is not there. -/
theorem C104_below_file (fs : FS) (p : List PyStr) (hp : ∀ s ∈ p, PlainName s) (hd : DirAt fs p) (name rest : PyStr) (hn : PlainName name) (hs : 0x2f ∉ name)
    (hf : fs (p ++ [name]) ≠ some .dir) : fsGet fs p (name ++ lit "/" ++ rest) = .error .keyError := by
  have e : name ++ lit "/" ++ rest = name ++ 0x2f :: rest := by simp [lit]
  have hh : (name ++ 0x2f :: rest).head? ≠ some slash := by
    cases name with
    | nil => exact absurd rfl hn.1
    | cons c cs => simp only [List.cons_append, List.head?_cons, ne_eq, Option.some.injEq]; rintro rfl; exact hs (by simp [slash])
  have hr : resolve fs (fsJoin p (name ++ 0x2f :: rest)) = none := by
    rw [fsJoin, if_neg hh, splitSlash_append _ _ hs, resolve, resolveFrom_through fs p [] _ hp (by simpa [DirAt] using hd), List.nil_append, resolveFrom,
      if_pos (hd p List.prefix_rfl), if_neg hn.2.2, if_neg (by rintro (h | h); exact hn.2.1 h; exact hn.1 h)]
    cases hsp : splitSlash rest with
    | nil => exact absurd hsp (splitSlash_ne rest)
    | cons a b => rw [resolveFrom, if_neg hf]
  unfold fsGet isDir pathExists
  rw [e]
  simp only [hr, Bool.false_eq_true, if_false]

/-- An example: "x" is a file, so that there is no "x/y", and no "x/". -/
example : fsGet (FS.set (FS.set (fun _ => none) [] .dir) [lit "x"] (.file [1])) [] (lit "x/y") = .error .keyError ∧
    fsGet (FS.set (FS.set (fun _ => none) [] .dir) [lit "x"] (.file [1])) [] (lit "x") = .ok (.stream [lit "x"]) := ⟨rfl, rfl⟩

/-- **Violated**: '..' is not a name of an item of a storage, but in a directory it gives the parent directory, and
from there everything next to it. -/
theorem C104_parent (fs : FS) (p : List PyStr) (o : PyStr) (hp : ∀ s ∈ p, PlainName s) (ho : PlainName o) (hd : DirAt fs (p ++ [o]))
    (name : PyStr) (d : Bytes) (hn : PlainName name) (hs : 0x2f ∉ name) (hf : fs (p ++ [name]) = some (.file d)) :
    ∃ i, fsOpen fs (.storage (p ++ [o])) [lit "..", name] = .ok (.stream i) ∧ fsRead fs i = .ok d := by
  have hpo : ∀ s ∈ p ++ [o], PlainName s := by
    intro s hs
    simp only [List.mem_append, List.mem_singleton] at hs
    rcases hs with hs | rfl
    · exact hp s hs
    · exact ho
  have hdp : DirAt fs p := fun q hq => hd q (hq.trans (List.prefix_append _ _))
  have hup : ∀ rest, resolve fs ((p ++ [o]) ++ [lit ".."] ++ rest) = resolveFrom fs p rest := by
    intro rest
    rw [resolve, List.append_assoc, resolveFrom_through fs (p ++ [o]) [] _ hpo (by simpa [DirAt] using hd)]
    rw [List.nil_append, List.singleton_append, resolveFrom, if_pos (hd _ List.prefix_rfl), if_pos (by decide)]
    simp
  have e1 : fsGet fs (p ++ [o]) (lit "..") = .ok (.storage ((p ++ [o]) ++ [lit ".."])) := by
    have hj : fsJoin (p ++ [o]) (lit "..") = (p ++ [o]) ++ [lit ".."] := fsJoin_plain _ _ (by decide)
    have hr := hup []
    rw [List.append_nil, resolveFrom] at hr
    unfold fsGet isDir
    dsimp only
    rw [hj, hr]
    simp [hdp p List.prefix_rfl]
  have hr2 : resolve fs ((p ++ [o]) ++ [lit ".."] ++ [name]) = some (p ++ [name]) := by
    rw [hup, resolveFrom, if_pos (hdp p List.prefix_rfl), if_neg hn.2.2, if_neg (by rintro (h | h); exact hn.2.1 h; exact hn.1 h), resolveFrom]
  have e2 : fsGet fs ((p ++ [o]) ++ [lit ".."]) name = .ok (.stream ((p ++ [o]) ++ [lit ".."] ++ [name])) := by
    unfold fsGet isDir pathExists
    dsimp only
    rw [fsJoin_plain _ _ hs, hr2]
    simp [hf]
  refine ⟨(p ++ [o]) ++ [lit ".."] ++ [name], by simp only [fsOpen, e1, e2], ?_⟩
  unfold fsRead
  rw [hr2]
  simp [hf]

/-- **Violated**: an absolute path gives any file of the system, whatever the directory. -/
theorem C104_absolute (fs : FS) (p : List PyStr) (name : PyStr) (d : Bytes) (hroot : fs [] = some .dir)
    (hn : PlainName name) (hs : 0x2f ∉ name) (hf : fs [name] = some (.file d)) :
    ∃ i, fsOpen fs (.storage p) [lit "/" ++ name] = .ok (.stream i) ∧ fsRead fs i = .ok d := by
  have hj : fsJoin p (lit "/" ++ name) = [[], name] := by
    have e : lit "/" ++ name = slash :: name := rfl
    rw [e, fsJoin, if_pos (by simp), splitSlash, if_pos rfl, splitSlash_plain name hs]
  have hr : resolve fs [[], name] = some [name] := by
    rw [resolve, resolveFrom, if_pos hroot, if_neg (by decide), if_pos (Or.inr rfl), resolveFrom, if_pos hroot, if_neg hn.2.2,
      if_neg (by rintro (h | h); exact hn.2.1 h; exact hn.1 h)]
    rfl
  refine ⟨[[], name], ?_, ?_⟩
  · rw [fsOpen]
    unfold fsGet isDir pathExists
    dsimp only
    rw [hj, hr]
    simp [hf, fsOpen]
  · unfold fsRead
    rw [hr]
    simp [hf]

/-! ### Examples -/

/-- `{'A': {'x': b'\1', 'y': b'\2'}, 'x': b'\3', '\x05S': b'\4'}`, unpacked. -/
def exUnpacked : FS := (unpack exFS [[0x6f]] (.cons [5, 0x53] (.stream [4]) exStorage)).1

/-- One order in which the system could list the names. -/
def exListing (p : List PyStr) : List PyStr :=
  if p = [[0x6f]] then [[0x78], [0x5f, 0x30, 0x35, 0x53], [0x41]] else [[0x79], [0x78]]

example : fsLeafs exListing exUnpacked 2 [[0x6f]] [] =
    some (.ok [lit "A/x", lit "A/y", lit "_05S", lit "x"]) := rfl
example : fsLeafs exListing exUnpacked 1 [[0x6f]] [] = none := rfl
example : fsIter exListing exUnpacked [[0x6f]] = .ok [lit "A", lit "_05S", lit "x"] := rfl
example : fsOpen exUnpacked (.storage [[0x6f]]) [lit "A", lit "y"] = .ok (.stream [[0x6f], lit "A", lit "y"]) ∧
    fsRead exUnpacked [[0x6f], lit "A", lit "y"] = .ok [2] := ⟨rfl, rfl⟩
example : fsOpen exUnpacked (.storage [[0x6f]]) [lit "A", lit "z"] = .error .keyError ∧
    fsOpen exUnpacked (.storage [[0x6f]]) [lit "x", lit "z"] = .error .typeError := ⟨rfl, rfl⟩
/-- A '/' within a name is a path of the file system; a file has no name with a '/' at the end. -/
example : fsGet exUnpacked [[0x6f]] (lit "A/y") = .ok (.stream [[0x6f], lit "A", lit "y"]) ∧
    fsGet exUnpacked [[0x6f]] (lit "A/") = .ok (.storage [[0x6f], lit "A", []]) ∧
    fsGet exUnpacked [[0x6f]] (lit "x/") = .error .keyError ∧
    fsGet exUnpacked [[0x6f]] [] = .ok (.storage [[0x6f], []]) := ⟨rfl, rfl, rfl, rfl⟩
example : Unpackable exStorage ∧ NoControl exStorage ∧ stgDepth exStorage = 1 := by
  refine ⟨?_, ?_, rfl⟩
  · simp [exStorage, Unpackable, UnpackableItem, fileNames, StgEntries.names, fileName, PlainName]
  · simp [exStorage, NoControl, NoControlItem]
example : ∃ q, fsOpen exUnpacked (.storage [[0x6f], lit "A"]) [lit "/o/x"] = .ok (.stream q) ∧ fsRead exUnpacked q = .ok [3] :=
  ⟨_, rfl, rfl⟩
example : ∃ q, fsOpen exUnpacked (.storage [[0x6f]]) [lit "..", lit "o", lit "x"] = .ok (.stream q) ∧ fsRead exUnpacked q = .ok [3] :=
  ⟨_, rfl, rfl⟩

end Hwp.Props
