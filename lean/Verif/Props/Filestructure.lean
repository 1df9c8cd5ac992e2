/-
C47-C50, C61-C63: file header, document layers, sections, versions, decompression.
-/
import Verif.Proofs.Filestructure
set_option linter.unusedSimpArgs false
namespace Hwp.Props
open Hwp Spec

/-! ### Example documents -/

/-- A file header with the given version bytes and flags. -/
def exHeader (flags : UInt8) : Bytes := hwp5Signature ++ [4, 3, 0, 5] ++ [flags, 0, 0, 0] ++ [0]

/-- A document with one stream in each place. -/
def exDoc (flags : UInt8) : StgEntries :=
  .cons (ustr "FileHeader") (.stream (exHeader flags))
  (.cons (ustr "DocInfo") (.stream [1])
  (.cons (ustr "BodyText") (.storage (.cons (ustr "Section0") (.stream [2]) .nil))
  (.cons (ustr "DocOptions") (.storage (.cons (ustr "_LinkDoc") (.stream [3]) .nil))
  (.cons (ustr "PrvText") (.stream [4]) .nil))))

/-- A codec for examples: inflating doubles each byte; streams starting with 9 are not
deflated. -/
def exCodec : Codec where
  inflate := fun d => if d.head? = some 9 then none else some (d ++ d)
  aes := fun _ d => d

/-! ### C61 -/

/-- `storage_is_hwp5file` decides exactly by the signature when the header is long
enough. -/
theorem C61_decides_partial (es : StgEntries) (d : Bytes)
    (hl : es.lookup (ustr "FileHeader") = some (.stream d)) (hlen : 41 ≤ d.length) :
    storageIsHwp5file es = .ok (d.take 32 = hwp5Signature) := by
  unfold storageIsHwp5file
  simp only [hl, readHeader_eq, header, if_pos hlen]
  rfl

/-- Without a `FileHeader` the answer is no. -/
theorem C61_no_header (es : StgEntries) (hl : es.lookup (ustr "FileHeader") = none) :
    storageIsHwp5file es = .ok false := by
  unfold storageIsHwp5file
  simp [hl]

/-- **Violated**: for every shorter `FileHeader` stream the test raises instead of
answering. -/
theorem C61_short_header_raises (es : StgEntries) (d : Bytes)
    (hl : es.lookup (ustr "FileHeader") = some (.stream d)) (hlen : d.length ≤ 40) :
    storageIsHwp5file es =
      .error (if 36 ≤ d.length ∧ d.length < 40 then .keyError else .parseError) := by
  unfold storageIsHwp5file
  simp only [hl, readHeader_eq, header, if_neg (show ¬ 41 ≤ d.length by omega)]
  split <;> rfl

/-- The positive answers: the storage has a `FileHeader` stream that starts with the
signature and is longer than 40 bytes. -/
theorem C61_yes_iff (es : StgEntries) :
    storageIsHwp5file es = .ok true ↔
      ∃ d, es.lookup (ustr "FileHeader") = some (.stream d) ∧ 41 ≤ d.length ∧ d.take 32 = hwp5Signature := by
  constructor
  · intro h
    cases hl : es.lookup (ustr "FileHeader") with
    | none => rw [C61_no_header es hl] at h; simp at h
    | some i =>
      cases i with
      | storage x => unfold storageIsHwp5file at h; simp [hl] at h
      | stream d =>
        by_cases hlen : 41 ≤ d.length
        · rw [C61_decides_partial es d hl hlen] at h
          simp at h
          exact ⟨d, rfl, hlen, h⟩
        · rw [C61_short_header_raises es d hl (by omega)] at h
          simp at h
  · rintro ⟨d, hl, hlen, hs⟩
    rw [C61_decides_partial es d hl hlen, hs]
    simp

example : storageIsHwp5file (exDoc 0) = .ok true := by rfl
example : storageIsHwp5file (.cons (ustr "FileHeader") (.stream hwp5Signature) .nil) = .error .parseError := by rfl
example : storageIsHwp5file (.cons (ustr "FileHeader") (.stream ((exHeader 0).take 37)) .nil) = .error .keyError := by rfl
example : storageIsHwp5file (.cons (ustr "FileHeader") (.stream (List.replicate 64 7)) .nil) = .ok false := by rfl

/-! ### C47 -/

/-- Which storages are documents, and what the header of an opened document is. -/
theorem C47_opens_iff (c : Codec) (es : StgEntries) (f : Obj) :
    hwp5File c es = .ok f ↔
    ∃ d h, es.lookup (ustr "FileHeader") = some (.stream d) ∧ header d = .ok h ∧
      h.signature = hwp5Signature ∧ f = .hwpFile (layers h (.fileBase (.raw (.storage es)))) h := by
  constructor
  · exact hwp5File_ok c es f
  · rintro ⟨d, h, h1, h2, h3, rfl⟩
    exact hwp5File_of c es d h h1 h2 h3

/-- Anything with a readable header and another signature is rejected with
`InvalidHwp5FileError`. -/
theorem C47_rejects (c : Codec) (es : StgEntries) (h : storageIsHwp5file es = .ok false) :
    hwp5File c es = .error .invalidHwp5File := by
  unfold hwp5File hwp5FileBase
  simp [h, bind, Except.bind]

/-- Streams directly inside a top level storage: as stored for password protected
documents, else decrypted iff distributable and then decompressed iff compressed, for the
documented storages. -/
theorem C47_inner_streams (c : Codec) (es sub : StgEntries) (d : Bytes) (h : Header) (f : Obj)
    (top n : PyStr) (stored : Bytes)
    (hd : es.lookup (ustr "FileHeader") = some (.stream d)) (hh : header d = .ok h)
    (hf : hwp5File c es = .ok f)
    (ht : es.lookup top = some (.storage sub)) (hn : sub.lookup n = some (.stream stored))
    (hs : top ∉ topStreams) :
    (do
      let a ← f.getitem top
      let b ← a.getitem n
      b.openRead c) = innerStream c h.flags top stored := by
  obtain ⟨d', h', h1, h2, h3, rfl⟩ := hwp5File_ok c es f hf
  rw [hd] at h1
  simp only [Option.some.injEq, StgItem.stream.injEq] at h1
  subst h1
  rw [hh] at h2
  simp only [Except.ok.injEq] at h2
  subst h2
  exact inner_eq c es sub h top n stored ht hn hs

/-- Streams at the top level: only `DocInfo` is decompressed. -/
theorem C47_top_streams (c : Codec) (es : StgEntries) (d : Bytes) (h : Header) (f : Obj)
    (name : PyStr) (stored : Bytes)
    (hd : es.lookup (ustr "FileHeader") = some (.stream d)) (hh : header d = .ok h)
    (hf : hwp5File c es = .ok f) (ht : es.lookup name = some (.stream stored)) :
    (do
      let a ← f.getitem name
      a.openRead c) = .ok (topStream c h.flags name stored) := by
  obtain ⟨d', h', h1, h2, h3, rfl⟩ := hwp5File_ok c es f hf
  rw [hd] at h1
  simp only [Option.some.injEq, StgItem.stream.injEq] at h1
  subst h1
  rw [hh] at h2
  simp only [Except.ok.injEq] at h2
  subst h2
  exact top_eq c es h name stored ht

/-- The layers do not change which items there are. -/
theorem C47_same_names (c : Codec) (es : StgEntries) (f : Obj) (hf : hwp5File c es = .ok f) :
    f.iter = .ok es.names := by
  obtain ⟨d', h', h1, h2, h3, rfl⟩ := hwp5File_ok c es f hf
  unfold layers
  simp only [Obj.iter]
  split
  · rfl
  · split <;> split <;> rfl

/-- Names that are not there are a `KeyError`. -/
theorem C47_missing (c : Codec) (es : StgEntries) (f : Obj) (hf : hwp5File c es = .ok f) (name : PyStr)
    (hn : es.lookup name = none) : f.getitem name = .error .keyError := by
  obtain ⟨d', h', h1, h2, h3, rfl⟩ := hwp5File_ok c es f hf
  unfold layers
  simp only [Obj.getitem]
  split
  · simp [Obj.getitem, hn, bind, Except.bind]
  · split <;> split <;> simp [Obj.getitem, hn, bind, Except.bind]

/-- Run a read of an inner stream of an example document. -/
def exRead (flags : UInt8) (top n : String) : Except PyErr Bytes := do
  let f ← hwp5File exCodec (exDoc flags)
  let a ← f.getitem (ustr top)
  let b ← a.getitem (ustr n)
  b.openRead exCodec
example : exRead 0 "BodyText" "Section0" = .ok [2] := by rfl
example : exRead 1 "BodyText" "Section0" = .ok [2, 2] := by rfl
example : exRead 3 "BodyText" "Section0" = .ok [2] := by rfl
example : exRead 1 "DocOptions" "_LinkDoc" = .ok [3] := by rfl
example : hwp5File exCodec .nil = .error .invalidHwp5File := by rfl

/-- A distributed, compressed document: the streams of `ViewText` are decrypted first. -/
def exDist : StgEntries :=
  .cons (ustr "FileHeader") (.stream (exHeader 5))
  (.cons (ustr "ViewText") (.storage (.cons (ustr "Section0")
    (.stream ([0x1c, 0, 0, 0x10] ++ List.replicate 256 0 ++ List.replicate 16 7)) .nil)) .nil)
example : (do
    let f ← hwp5File exCodec exDist
    let a ← f.getitem (ustr "ViewText")
    let b ← a.getitem (ustr "Section0")
    b.openRead exCodec) = .ok (List.replicate 32 7) := by decide +kernel

/-! ### C62 version and choice of the text -/

/-- Sections of the body and the view text carry the version of the file header. -/
theorem C62_section_version (c : Codec) (es sub : StgEntries) (h : Header) (f : Obj) (d : Bytes)
    (top n : PyStr) (item : StgItem)
    (hd : es.lookup (ustr "FileHeader") = some (.stream d)) (hh : header d = .ok h)
    (hf : hwp5File c es = .ok f) (htop : top = ustr "BodyText" ∨ top = ustr "ViewText")
    (ht : es.lookup top = some (.storage sub)) (hn : sub.lookup n = some item) :
    ∃ a w, f.getitem top = .ok a ∧ a.getitem n = .ok (.versioned w h.version) := by
  obtain ⟨d', h', h1, h2, h3, rfl⟩ := hwp5File_ok c es f hf
  rw [hd] at h1
  simp only [Option.some.injEq, StgItem.stream.injEq] at h1
  subst h1
  rw [hh] at h2
  simp only [Except.ok.injEq] at h2
  subst h2
  unfold layers
  cases h.password <;> cases h.distributable <;> cases h.compressed <;> rcases htop with rfl | rfl <;>
    simp (decide := true) [ht, hn, Obj.getitem, Obj.convertFile, Obj.convertCompression, Obj.convertDist,
      Obj.convertPassword, Obj.isStream, Obj.withOpen, bind, Except.bind, pure, Except.pure]

/-- The text of a distribution document is its view text, otherwise the body text. -/
theorem C62_text (c : Codec) (es : StgEntries) (h : Header) (f : Obj) (d : Bytes)
    (hd : es.lookup (ustr "FileHeader") = some (.stream d)) (hh : header d = .ok h)
    (hf : hwp5File c es = .ok f) :
    fileText f = f.getitem (if h.flags.testBit 2 then ustr "ViewText" else ustr "BodyText") := by
  obtain ⟨d', h', h1, h2, h3, rfl⟩ := hwp5File_ok c es f hf
  rw [hd] at h1
  simp only [Option.some.injEq, StgItem.stream.injEq] at h1
  subst h1
  rw [hh] at h2
  simp only [Except.ok.injEq] at h2
  subst h2
  unfold fileText
  dsimp only
  rw [distributable_eq]
  cases h.flags.testBit 2 <;> rfl

example : header (exHeader 5) = .ok ⟨hwp5Signature, [5, 0, 3, 4], 5⟩ := by rfl

/-! ### C48 -/

/-- If every name that starts with "Section" and continues with something that `int()`
accepts is written in the plain decimal form, then the section list is strictly
increasing, contains exactly the numbers of the section streams, and each section opens
the item with that number. Missing from the claim: other spellings of numbers, such as
'Section01' (see the counterexamples). -/
theorem C48_sections_partial (toInt : PyStr → Option Int) (o : Obj) (names : List PyStr)
    (hi : o.iter = .ok names) (hd : names.Nodup)
    (hget : ∀ n ∈ names, ∃ x, o.getitem n = .ok x)
    (hc : ∀ i, toInt (decimal i) = some i)
    (hcanon : ∀ rest i, ustr "Section" ++ rest ∈ names → toInt rest = some i → rest = decimal i) :
    ∃ (idx : List Int) (objs : List Obj), idx.Pairwise (· < ·) ∧ (∀ i, i ∈ idx ↔ ustr "Section" ++ decimal i ∈ names) ∧
      sectionsOf toInt o = .ok objs ∧
      idx.map (fun i => o.getitem (ustr "Section" ++ decimal i)) = objs.map .ok := by
  obtain ⟨h1, h2⟩ := sectionIndexes_spec toInt names hd hc hcanon
  obtain ⟨objs, h3, h4⟩ := mapM_ok (section_ o) (sectionIndexes toInt names)
    (fun i hi => hget _ ((h2 i).1 hi))
  refine ⟨sectionIndexes toInt names, objs, h1, h2, ?_, h4⟩
  unfold sectionsOf
  rw [hi]
  exact h3

/-- For an opened document: reading all sections of the body text or the view text, in the
order of the list, reads the streams in the order of their numbers through the layers. -/
theorem C48_document_sections_partial (c : Codec) (es sub : StgEntries) (d : Bytes) (h : Header) (f : Obj)
    (top : PyStr) (content : Int → Bytes)
    (hd : es.lookup (ustr "FileHeader") = some (.stream d)) (hh : header d = .ok h)
    (hf : hwp5File c es = .ok f) (htop : top = ustr "BodyText" ∨ top = ustr "ViewText")
    (ht : es.lookup top = some (.storage sub)) (hnd : sub.names.Nodup)
    (hsub : ∀ n ∈ sub.names, ∃ item, sub.lookup n = some item)
    (hcanon : ∀ rest i, ustr "Section" ++ rest ∈ sub.names → pyInt rest = some i → rest = decimal i)
    (hcontent : ∀ i, ustr "Section" ++ decimal i ∈ sub.names →
      sub.lookup (ustr "Section" ++ decimal i) = some (.stream (content i))) :
    ∃ idx : List Int, idx.Pairwise (· < ·) ∧ (∀ i, i ∈ idx ↔ ustr "Section" ++ decimal i ∈ sub.names) ∧
      (do
        let a ← f.getitem top
        let ss ← sectionsOf pyInt a
        ss.mapM (·.openRead c)) = idx.mapM (fun i => innerStream c h.flags top (content i)) := by
  obtain ⟨a, ha, hiter⟩ : ∃ a, f.getitem top = .ok a ∧ a.iter = .ok sub.names := by
    obtain ⟨d', h', h1, h2, h3, rfl⟩ := hwp5File_ok c es f hf
    unfold layers
    cases h'.password <;> cases h'.distributable <;> cases h'.compressed <;> rcases htop with rfl | rfl <;>
      simp (decide := true) [ht, Obj.getitem, Obj.convertFile, Obj.convertCompression, Obj.convertDist,
        Obj.convertPassword, Obj.isStream, Obj.withOpen, Obj.iter, bind, Except.bind, pure, Except.pure]
  obtain ⟨idx, objs, s1, s2, s3, s4⟩ := C48_sections_partial pyInt a sub.names hiter hnd
    (by
      intro n hn
      obtain ⟨item, hitem⟩ := hsub n hn
      obtain ⟨a', w, e1, e2⟩ := C62_section_version c es sub h f d top n item hd hh hf htop ht hitem
      rw [ha] at e1
      simp only [Except.ok.injEq] at e1
      subst e1
      exact ⟨_, e2⟩)
    pyInt_decimal hcanon
  refine ⟨idx, s1, s2, ?_⟩
  have e : (do
      let a ← f.getitem top
      let ss ← sectionsOf pyInt a
      ss.mapM (·.openRead c)) = objs.mapM (·.openRead c) := by
    rw [ha]
    simp only [bind, Except.bind]
    rw [s3]
  rw [e]
  have hall : ∀ i ∈ idx, (do
      let b ← a.getitem (ustr "Section" ++ decimal i)
      b.openRead c) = innerStream c h.flags top (content i) := by
    intro i hi
    have := C47_inner_streams c es sub d h f top _ _ hd hh hf ht (hcontent i ((s2 i).1 hi))
      (by rcases htop with rfl | rfl <;> decide)
    rw [ha] at this
    exact this
  clear s1 s2 s3 e hcontent hcanon
  induction idx generalizing objs with
  | nil =>
    cases objs with
    | nil => rfl
    | cons _ _ => simp at s4
  | cons i is ih =>
    cases objs with
    | nil => simp at s4
    | cons x xs =>
      simp only [List.map_cons, List.cons.injEq] at s4
      have h1 := hall i (by simp)
      rw [s4.1] at h1
      have h1 : x.openRead c = innerStream c h.flags top (content i) := h1
      rw [List.mapM_cons, List.mapM_cons, h1, ih xs s4.2 (fun j hj => hall j (by simp [hj]))]

/-- `int()` reads back what `'%d'` writes. -/
theorem C48_int_of_decimal (i : Int) : pyInt (decimal i) = some i := pyInt_decimal i

/-- The contents of the sections of a storage. -/
def exSections (es : StgEntries) : Except PyErr (List Bytes) := do
  let ss ← sectionsOf pyInt (.sections (.raw (.storage es)) [5, 0, 3, 4])
  ss.mapM (·.openRead exCodec)

/-- **Violated**: a stream named 'Section01' is listed as section 1, which cannot be
opened. -/
theorem C48_leading_zero_fails :
    exSections (.cons (ustr "Section01") (.stream [7]) .nil) = .error .keyError := by decide +kernel

/-- **Violated**: with both 'Section1' and 'Section01' the first is listed twice and the
second never. -/
theorem C48_duplicate :
    exSections (.cons (ustr "Section01") (.stream [7]) (.cons (ustr "Section1") (.stream [8]) .nil)) =
      .ok [[8], [8]] := by decide +kernel

example : exSections (.cons (ustr "Section2") (.stream [7]) (.cons (ustr "x") (.stream [])
    (.cons (ustr "Section10") (.stream [8]) (.cons (ustr "Section0") (.stream [9]) .nil)))) =
      .ok [[9], [7], [8]] := by decide +kernel
example : sectionIndexes pyInt [ustr "Section10", ustr "Section2", ustr "Sectionx", ustr "Section0", ustr "x"] =
    [0, 2, 10] := by decide +kernel
example : pyInt (ustr " 1_0 ") = some 10 ∧ pyInt (ustr "+7") = some 7 ∧ pyInt (ustr "-3") = some (-3) ∧
    pyInt (ustr "1__0") = none ∧ pyInt (ustr "") = none ∧ pyInt (ustr "_1") = none := by decide +kernel

/-! ### C49 -/

/-- The version tuple read from a header orders documents like the 32-bit little endian
number at offset 32, and determines it. -/
theorem C49_version_order (a b : Bytes) (ha hb : Header) (h1 : header a = .ok ha) (h2 : header b = .ok hb) :
    (Version.lt ha.version hb.version = true ↔ leNat ((a.drop 32).take 4) < leNat ((b.drop 32).take 4)) ∧
    (ha.version = hb.version ↔ (a.drop 32).take 4 = (b.drop 32).take 4) := by
  have key : ∀ (s : Bytes) (h : Header), header s = .ok h →
      versionDecode ((s.drop 32).take 4) = .ok h.version ∧ ((s.drop 32).take 4).length = 4 := by
    intro s h e
    unfold header at e
    split at e
    · rename_i hl
      simp only [Except.ok.injEq] at e
      subst e
      refine ⟨?_, by simp; omega⟩
      have g : ∀ i, i < 4 → ((s.drop 32).take 4)[i]? = some (s.getD (32 + i) 0) := by
        intro i hi
        rw [List.getElem?_take_of_lt hi, List.getElem?_drop, List.getD_eq_getElem?_getD]
        have : 32 + i < s.length := by omega
        rw [List.getElem?_eq_getElem this]
        rfl
      unfold versionDecode
      rw [g 0 (by omega), g 1 (by omega), g 2 (by omega), g 3 (by omega)]
    · split at e <;> simp at e
  obtain ⟨a1, a2⟩ := key a ha h1
  obtain ⟨b1, b2⟩ := key b hb h2
  exact version_lt_iff _ _ _ _ a2 b2 a1 b1

/-- The reader gives the header laid out in the file, or an error for short ones. -/
theorem C49_header_layout (s : Bytes) : readHeader s = header s := readHeader_eq s

example : (readHeader (exHeader 1)).toOption.map (·.version) = some [5, 0, 3, 4] := by rfl
example : Version.lt [5, 0, 2, 9] [5, 0, 3, 0] = true := by rfl

/-! ### C50 -/

/-- Streams of `BodyText` and `BinData` in a compressed document that is neither
protected nor distributed. -/
theorem C50_fallback (c : Codec) (es sub : StgEntries) (d : Bytes) (h : Header) (f : Obj)
    (top n : PyStr) (stored : Bytes)
    (hd : es.lookup (ustr "FileHeader") = some (.stream d)) (hh : header d = .ok h)
    (hf : hwp5File c es = .ok f) (htop : top = ustr "BodyText" ∨ top = ustr "BinData")
    (ht : es.lookup top = some (.storage sub)) (hn : sub.lookup n = some (.stream stored))
    (h0 : h.flags.testBit 0 = true) (h1 : h.flags.testBit 1 = false) :
    (c.inflate stored = none →
      (do
        let a ← f.getitem top
        let b ← a.getitem n
        b.openRead c) = .ok stored) ∧
    (∀ inflated, c.inflate stored = some inflated →
      (do
        let a ← f.getitem top
        let b ← a.getitem n
        b.openRead c) = .ok inflated) := by
  have key := C47_inner_streams c es sub d h f top n stored hd hh hf ht hn
    (by rcases htop with rfl | rfl <;> decide)
  rw [key]
  unfold innerStream
  have e1 : top ∉ encryptedStorages.map ustr := by rcases htop with rfl | rfl <;> decide
  have e2 : top ∈ compressedStorages.map ustr := by rcases htop with rfl | rfl <;> decide
  simp only [h1, h0, e1, e2, and_false, and_self, if_false, if_true, Bool.false_eq_true]
  constructor
  · intro h; simp [h, bind, Except.bind, pure, Except.pure]
  · intro x h; simp [h, bind, Except.bind, pure, Except.pure]

example : decompress exCodec.inflate [9, 1] = [9, 1] ∧ decompress exCodec.inflate [1] = [1, 1] := by decide

/-- C47: storages inside a top level storage (other than the text and, when encrypted,
the scripts) are given as stored, without a layer around them. -/
theorem C47_inner_storages (c : Codec) (es sub inner : StgEntries) (d : Bytes) (h : Header) (f : Obj)
    (top n : PyStr)
    (hd : es.lookup (ustr "FileHeader") = some (.stream d)) (hh : header d = .ok h)
    (hf : hwp5File c es = .ok f)
    (ht : es.lookup top = some (.storage sub)) (hn : sub.lookup n = some (.storage inner))
    (hs : top ∉ topStreams) (h1 : top ≠ ustr "BodyText") (h2 : top ≠ ustr "ViewText")
    (h3 : top = ustr "Scripts" → h.flags.testBit 2 = false ∨ h.flags.testBit 1 = true) :
    (do
      let a ← f.getitem top
      a.getitem n) = .ok (.raw (.storage inner)) := by
  obtain ⟨d', h', g1, g2, g3, rfl⟩ := hwp5File_ok c es f hf
  rw [hd] at g1
  simp only [Option.some.injEq, StgItem.stream.injEq] at g1
  subst g1
  rw [hh] at g2
  simp only [Except.ok.injEq] at g2
  subst g2
  simp only [topStreams, List.mem_cons, List.not_mem_nil, or_false, not_or] at hs
  obtain ⟨t1, t2, t3, t4⟩ := hs
  unfold layers
  rw [password_eq, distributable_eq, compressed_eq]
  cases b1 : h.flags.testBit 1 <;> cases b2 : h.flags.testBit 2 <;> cases b0 : h.flags.testBit 0 <;>
  by_cases n1 : top = ustr "BinData" <;> by_cases n4 : top = ustr "Scripts" <;>
  simp (decide := true) [b1, b2, ht, hn, n1, n4, h1, h2, t1, t2, t3, t4, Obj.getitem, Obj.convertFile,
    Obj.convertCompression, Obj.convertDist, Obj.convertPassword, Obj.isStream, Obj.withOpen, bind, Except.bind,
    pure, Except.pure] at h3 ⊢ <;>
  first
  | (rw [n1] at ht; simp (decide := true) [ht, hn, Obj.getitem, Obj.isStream, bind, Except.bind, pure, Except.pure])
  | (rw [n4] at ht; simp (decide := true) [ht, hn, Obj.getitem, Obj.isStream, bind, Except.bind, pure, Except.pure])

/- An object in `BinData` that is itself a storage, in a compressed document. -/
example : (do
    let f ← hwp5File exCodec
      (.cons (ustr "FileHeader") (.stream (exHeader 1))
      (.cons (ustr "BinData") (.storage (.cons (ustr "BIN0001.OLE")
        (.storage (.cons (ustr "Contents") (.stream [3]) .nil)) .nil)) .nil))
    let a ← f.getitem (ustr "BinData")
    let b ← a.getitem (ustr "BIN0001.OLE")
    let e ← b.getitem (ustr "Contents")
    e.openRead exCodec) = .ok [3] := by decide +kernel

end Hwp.Props
