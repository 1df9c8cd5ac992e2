/-
C96, C97, C99: the commands that print the file header, the version and the summary
information, and the texts of the summary information and of the preview.
-/
import Verif.Proofs.Info
import Verif.Props.Msoleprops
set_option autoImplicit false
set_option linter.unusedSimpArgs false
set_option linter.unusedVariables false
namespace Hwp.Props
open Hwp Spec

/-! ### C96 header and version -/

/-- C96: `hwp5proc header` prints fourteen lines in alphabetical order: the flags as digits,
each by its bit of the 32 bit number at byte 36 of the stream `FileHeader`, the signature, and the
version. -/
theorem C96_header (c : Codec) (es : StgEntries) (d : Bytes) (h : Header)
    (hd : es.lookup (ustr "FileHeader") = some (.stream d)) (hh : header d = .ok h) (hs : h.signature = hwp5Signature) :
    (headerMain c es).2 = none ∧ decodeUtf8 (headerMain c es).1 = some (unixLines (headerLines h.flags h.version)) := by
  have hf := hwp5File_of c es d h hd hh hs
  unfold header at hh
  split at hh
  · obtain ⟨sig, ver, flags⟩ := h
    simp only [Except.ok.injEq, Header.mk.injEq] at hh
    obtain ⟨_, hv, _⟩ := hh
    simp only at hs
    subst hs
    subst hv
    obtain ⟨bs, h1, h2⟩ := headerText_eq flags (d.getD 35 0).toNat (d.getD 34 0).toNat (d.getD 33 0).toNat (d.getD 32 0).toNat
    have e : headerMain c es = (bs, none) := by
      unfold headerMain
      simp only [hf, Obj.header]
      rw [h1]
    rw [e]
    exact ⟨rfl, decode_encode _ _ h2⟩
  · split at hh <;> cases hh

/-- C96: `hwp5proc version` prints the version in the file header. -/
theorem C96_version (c : Codec) (es : StgEntries) (d : Bytes) (h : Header)
    (hd : es.lookup (ustr "FileHeader") = some (.stream d)) (hh : header d = .ok h) (hs : h.signature = hwp5Signature) :
    (versionMain c es).2 = none ∧ decodeUtf8 (versionMain c es).1 = some (unixLines [dotted h.version]) := by
  have hf := hwp5File_of c es d h hd hh hs
  have hv : ∃ a b c d, h.version = [a, b, c, d] := by
    unfold header at hh
    split at hh
    · cases hh; exact ⟨_, _, _, _, rfl⟩
    · split at hh <;> cases hh
  obtain ⟨v1, v2, v3, v4, hv⟩ := hv
  have e10 : lit "\n" = [10] := by decide
  obtain ⟨x, hx⟩ := utf8Encode_ascii (dotted h.version ++ [10]) (by
    intro c hc
    rcases List.mem_append.1 hc with hc | hc
    · exact dotted_ascii _ c hc
    · simp only [List.mem_singleton] at hc; omega)
  have e : versionMain c es = (x, none) := by
    unfold versionMain
    simp only [hf, Obj.header, hv, versionStr_four, e10]
    rw [← hv]
    unfold printAll
    simp only [hx, printAll, List.append_nil]
  rw [e]
  refine ⟨rfl, ?_⟩
  rw [decode_encode _ _ hx]
  simp [unixLines]

/-- C96: the printed lines tell the twelve flags. -/
theorem C96_lines_determine (f f' : Nat) (a b c d a' b' c' d' : Nat)
    (h : headerLines f [a, b, c, d] = headerLines f' [a', b', c', d']) :
    ∀ i, i < 12 → f.testBit i = f'.testBit i := by
  have key : ∀ (k : PyStr) (i : Nat), k ++ bitDigit f i = k ++ bitDigit f' i → f.testBit i = f'.testBit i := by
    intro k i h
    have h := List.append_cancel_left h
    unfold bitDigit at h
    by_cases h1 : f.testBit i = true <;> by_cases h2 : f'.testBit i = true
    · rw [h1, h2]
    · rw [if_pos h1, if_neg h2] at h; exact absurd h (by decide)
    · rw [if_neg h1, if_pos h2] at h; exact absurd h (by decide)
    · simp only [Bool.not_eq_true] at h1 h2; rw [h1, h2]
  unfold headerLines at h
  simp only [List.cons.injEq] at h
  obtain ⟨g11, g10, g8, g9, g7, g0, g2, g4, g6, g1, g3, _, _, g5, _⟩ := h
  intro i hi
  have : i = 0 ∨ i = 1 ∨ i = 2 ∨ i = 3 ∨ i = 4 ∨ i = 5 ∨ i = 6 ∨ i = 7 ∨ i = 8 ∨ i = 9 ∨ i = 10 ∨ i = 11 := by omega
  rcases this with rfl | rfl | rfl | rfl | rfl | rfl | rfl | rfl | rfl | rfl | rfl | rfl
  · exact key _ _ g0
  · exact key _ _ g1
  · exact key _ _ g2
  · exact key _ _ g3
  · exact key _ _ g4
  · exact key _ _ g5
  · exact key _ _ g6
  · exact key _ _ g7
  · exact key _ _ g8
  · exact key _ _ g9
  · exact key _ _ g10
  · exact key _ _ g11

/-- C96: from a file that is not a document nothing is printed, and the status is 1. -/
theorem C96_not_a_document (c : Codec) (es : StgEntries) (e : PyErr) (h : hwp5File c es = .error e) :
    headerMain c es = ([], some e) ∧ versionMain c es = ([], some e) ∧ summaryMain c es = ([], some e) ∧ procStatus (some e) = 1 := by
  unfold headerMain versionMain summaryMain
  simp only [h]
  exact ⟨trivial, trivial, trivial, rfl⟩

/-- A header of version 5.0.3.2: compressed, with scripts. -/
def sampleFileHeader : Bytes := hwp5Signature ++ [2, 3, 0, 5] ++ [9, 0, 0, 0] ++ List.replicate 216 0
/-- No compression, no cipher. -/
def plainCodec : Codec := ⟨some, fun _ d => d⟩

example : headerMain plainCodec (.cons (ustr "FileHeader") (.stream sampleFileHeader) .nil) =
    ((lit "ccl: 0\ncert_drm: 0\ncert_encrypted: 0\ncert_signature_extra: 0\ncert_signed: 0\ncompressed: 1\ndistributable: 0\ndrm: 0\nhistory: 0\npassword: 0\nscript: 1\nsignature: HWP Document File\nversion: 5.0.3.2\nxmltemplate_storage: 0\n").map
      UInt8.ofNat, none) := by decide +kernel
example : versionMain plainCodec (.cons (ustr "FileHeader") (.stream sampleFileHeader) .nil) = ((lit "5.0.3.2\n").map UInt8.ofNat, none) := by
  decide +kernel
example : headerMain plainCodec (.cons (ustr "FileHeader") (.stream (sampleFileHeader.take 38)) .nil) = ([], some .keyError) := by decide +kernel

/-! ### C97 summary information -/

theorem showableAll (data : Bytes) (ls : List (String × Nat)) (vs : List PropValue)
    (hv : List.Forall₂ (fun l v => summaryGet data l.2 = .ok v) ls vs)
    (ht : ∀ n, PropValue.filetime n ∈ vs → n + timeSlack < fileTimeEnd) (hl : ∀ l ∈ ls, l.2 ≠ 0) :
    List.Forall₂ (fun l v => summaryGet data l.2 = .ok v ∧ Showable v) ls vs := by
  induction hv with
  | nil => exact .nil
  | @cons l v ls vs h1 _ ih =>
    obtain ⟨r1, r2⟩ := summaryGet_range data l.2 v h1
    refine .cons ⟨h1, showable_of v r1 (r2 (hl l List.mem_cons_self)) ?_⟩
      (ih (fun n hn => ht n (List.mem_cons_of_mem _ hn)) fun x hx => hl x (List.mem_cons_of_mem _ hx))
    intro n hn
    exact ht n (by rw [hn]; exact List.mem_cons_self)

/-- C97: `hwp5proc summaryinfo` prints thirteen lines: the title, the subject, and so on, as they are
stored.

Partial: every one of the thirteen properties must be there (`C97_stops`, `C97_missing_property`), and
times must be before the year 10000; times are shown up to 16 microseconds (C95). -/
theorem C97_summary_partial (c : Codec) (es : StgEntries) (d data : Bytes) (h : Header)
    (hd : es.lookup (ustr "FileHeader") = some (.stream d)) (hh : header d = .ok h) (hs : h.signature = hwp5Signature)
    (hi : es.lookup Obj.summaryName = some (.stream data)) (vs : List PropValue)
    (hv : List.Forall₂ (fun l v => summaryGet data l.2 = .ok v) summaryShown vs)
    (ht : ∀ n, PropValue.filetime n ∈ vs → n + timeSlack < fileTimeEnd) :
    ∃ ts : List PyStr, List.Forall₂ ShownAs vs ts ∧ (summaryMain c es).2 = none ∧
      decodeUtf8 (summaryMain c es).1 = some (unixLines (List.zipWith (fun l t => lit l.1 ++ t) summaryShown ts)) := by
  rw [summaryMain_data c es d data h hd hh hs hi]
  have hl : ∀ l ∈ summaryShown, (∀ c ∈ lit l.1, c < 0x80) ∧ l.2 ≠ 0 := by decide +kernel
  have hv' := showableAll data _ vs hv ht fun l hm => (hl l hm).2
  obtain ⟨ts, t1, t2⟩ := summaryLines_shown data summaryShown vs (fun l hm => (hl l hm).1) hv'
  obtain ⟨b, b1, b2⟩ := printAll_lines _ _ _ t2
  refine ⟨ts, t1, ?_⟩
  have : summaryLabels = summaryShown := rfl
  rw [this, b1]
  exact ⟨rfl, decode_encode _ _ b2⟩

/-- C97: the command stops at the first property that is missing or has no text: the lines before it
are printed, the others are not, and the status is 1. -/
theorem C97_stops (c : Codec) (es : StgEntries) (d data : Bytes) (h : Header)
    (hd : es.lookup (ustr "FileHeader") = some (.stream d)) (hh : header d = .ok h) (hs : h.signature = hwp5Signature)
    (hi : es.lookup Obj.summaryName = some (.stream data)) (before after : List (String × Nat)) (l : String × Nat)
    (hb : summaryShown = before ++ l :: after) (vs : List PropValue)
    (hv : List.Forall₂ (fun l v => summaryGet data l.2 = .ok v) before vs)
    (ht : ∀ n, PropValue.filetime n ∈ vs → n + timeSlack < fileTimeEnd) (e : PyErr)
    (he : summaryGet data l.2 = .error e) :
    ∃ ts : List PyStr, List.Forall₂ ShownAs vs ts ∧ (summaryMain c es).2 = some e ∧
      decodeUtf8 (summaryMain c es).1 = some (unixLines (List.zipWith (fun l t => lit l.1 ++ t) before ts)) := by
  rw [summaryMain_data c es d data h hd hh hs hi]
  have hl : ∀ l ∈ summaryShown, (∀ c ∈ lit l.1, c < 0x80) ∧ l.2 ≠ 0 := by decide +kernel
  have hl' : ∀ l ∈ before, (∀ c ∈ lit l.1, c < 0x80) ∧ l.2 ≠ 0 := by
    intro x hx
    exact hl x (by rw [hb]; exact List.mem_append_left _ hx)
  have hv' := showableAll data _ vs hv ht fun l hm => (hl' l hm).2
  obtain ⟨ts, t1, t2⟩ := summaryLines_shown data before vs (fun l hm => (hl' l hm).1) hv'
  have hline : summaryLine data l = .error e := by
    unfold summaryLine
    simp only [he, bind, Except.bind]
  obtain ⟨b, b1, b2⟩ := printAll_stops (summaryLine data) l after e hline _ _ t2
  refine ⟨ts, t1, ?_⟩
  have : summaryLabels = summaryShown := rfl
  rw [this, hb, b1]
  exact ⟨rfl, decode_encode _ _ b2⟩

/-- C97: without summary information nothing is printed (`KeyError`). -/
theorem C97_no_summary (c : Codec) (es : StgEntries) (d : Bytes) (h : Header)
    (hd : es.lookup (ustr "FileHeader") = some (.stream d)) (hh : header d = .ok h) (hs : h.signature = hwp5Signature)
    (hi : es.lookup Obj.summaryName = none) : summaryMain c es = ([], some .keyError) := by
  have hf := hwp5File_of c es d h hd hh hs
  unfold summaryMain
  rw [hf]
  have hk : (Obj.hwpFile (layers h (.fileBase (.raw (.storage es)))) h).getitem Obj.summaryName = .error .keyError := by
    unfold layers
    split
    · simp [Obj.getitem, hi, bind, Except.bind]
    · split <;> split <;> simp [Obj.getitem, hi, bind, Except.bind]
  simp only [hk]

/-- The summary information of one title, with pages but without the other properties. -/
def titleDocument : StgEntries :=
  .cons (ustr "FileHeader") (.stream sampleFileHeader) (.cons Obj.summaryName (.stream sampleSummary) .nil)

/-- C97 fails when a property is missing: the number of pages is there, but is not shown. -/
theorem C97_missing_property :
    summaryMain plainCodec titleDocument = ((lit "Title: Hi").map UInt8.ofNat ++ [0xEA, 0xB0, 0x80, 0x0A], some .keyError) ∧
    summaryGet sampleSummary 14 = .ok (.i4 (-3)) := by
  constructor <;> decide +kernel

/-- All thirteen properties. -/
def fullSummary (title subject : PyStr) (time : Nat) : Bytes :=
  let str (s : PyStr) : Bytes := encValue (.lpwstr s)
  let v : List (Nat × Bytes) :=
    [(2, str title), (3, str subject), (4, str (lit "me")), (5, str []), (6, str []), (8, str (lit "you")), (9, str (lit "9")),
     (11, encValue (.filetime 0)), (12, encValue (.filetime time)), (13, encValue (.filetime 864000000000)),
     (14, encValue (.i4 3)), (20, str (lit "today")), (21, encValue (.i4 (-1)))]
  let offsets := (v.map fun x => x.2.length).foldl (fun acc n => acc ++ [acc.getLastD 0 + n]) [124]
  sampleStreamHead ++ encPropSetHeader 400 (⟨0, 120⟩ :: List.zipWith (fun x o => ⟨x.1, o⟩) v offsets) ++
    encValue (.dictionary []) ++ v.flatMap (·.2)

/-- A document with it. -/
def fullDocument (title subject : PyStr) (time : Nat) : StgEntries :=
  .cons (ustr "FileHeader") (.stream sampleFileHeader)
    (.cons Obj.summaryName (.stream (fullSummary title subject time)) .nil)

example : summaryMain plainCodec (fullDocument (lit "T") (lit "S") 131234567890000000) =
    ((lit "Title: T\nSubject: S\nAuthor: me\nKeywords: \nComments: \nLast saved by: you\nRevision Number: 9\nLast Printed at: 1601-01-01 00:00:00\nCreated at: 2016-11-12 20:39:49\nLast saved at: 1601-01-02 00:00:00\nNumber of pages: 3\nDate: today\nNumber of paragraphs: -1\n").map
      UInt8.ofNat, none) := by decide +kernel

/-- C97 fails when a value contains a line feed: two documents with different titles and subjects give
the same output. -/
theorem C97_ambiguous :
    summaryMain plainCodec (fullDocument (lit "T\nSubject: x") (lit "y") 0) =
      summaryMain plainCodec (fullDocument (lit "T") (lit "x\nSubject: y") 0) ∧
    summaryGet (fullSummary (lit "T\nSubject: x") (lit "y") 0) 2 ≠ summaryGet (fullSummary (lit "T") (lit "x\nSubject: y") 0) 2 := by
  constructor <;> decide +kernel

/-- C97: the text form of the summary information (the stream `\\x05HwpSummaryInformation.txt`): the head of the
stream, and for each property set all its properties with positions, names and values, in the order of
their positions. -/
theorem C97_text (data b : Bytes) (h : summaryText data = .ok b) :
    ∃ s ls, readStreamObj data = .ok s ∧ StreamShown s ls ∧ decodeUtf8 b = some (unixLines ls) := by
  unfold summaryText at h
  simp only [bind, Except.bind] at h
  split at h
  · cases h
  rename_i s hs
  split at h
  · cases h
  rename_i x y hp
  cases h
  obtain ⟨ts, t1, t2⟩ := printedLines _ _ hp
  obtain ⟨g1, g2⟩ := readStreamObj_ok data s hs
  have hr := readPropertySetStream_range data _ _ g2
  obtain ⟨ls, l1, l2⟩ := propertyStreamLines_shown s (by
    intro t ht p hpm
    refine ⟨g1 t ht p hpm, ?_⟩
    exact (hr _ (List.mem_map_of_mem ht)).1 (p.id, p.value) (List.mem_map_of_mem (f := fun p : PropObj => (p.id, p.value)) hpm))
    (by intro l hl; rw [t1] at hl; obtain ⟨t, _, rfl⟩ := List.mem_map.1 hl; exact ⟨t, rfl⟩)
  refine ⟨s, ls, hs, l2, ?_⟩
  have : ts = ls := by
    rw [t1] at l1
    exact List.map_injective_iff.2 (fun a b h => by cases h; rfl) l1
  rw [← this]
  exact decode_encode _ _ t2

/- The sample: the properties in the order of the table would be 0, 14, 2. -/
example : summaryText sampleSummary = .ok ((lit "- ByteOrder: 0xfffe\n- Version: 0\n- SystemIdentifier: 0x00010002\n- CLSID: 9fa2b660-1061-11d4-b4c6-006097c09d8c\n\n- 00000030: Property Set 9fa2b660-1061-11d4-b4c6-006097c09d8c\n            -------------------------------------------------\n- 00000050: PID_DICTIONARY(=0x00000000):\n- 00000054: PIDSI_PAGECOUNT(=0x0000000e): -3\n- 0000005c: PIDSI_TITLE(=0x00000002): Hi").map
    UInt8.ofNat ++ [0xEA, 0xB0, 0x80, 0x0A]) := by decide +kernel

/-! ### C99 preview text -/

/-- C99: the two forms of the preview text agree: if the stream is UTF-16, `PrvText.utf8` is the same
text in UTF-8. -/
theorem C99_preview (data : Bytes) (s : PyStr) (h : previewText data = .ok s) :
    encodeUtf16le s = data ∧ ∃ b, previewUtf8 data = .ok b ∧ decodeUtf8 b = some s := by
  obtain ⟨h1, h2⟩ := encode_utf16leDecode data s h
  obtain ⟨b, hb⟩ := (utf8Encode_ok s).2 h2
  refine ⟨h1, b, ?_, decode_encode _ _ hb⟩
  unfold previewUtf8
  simp only [utf16leStream_of data s h, bind, Except.bind, hb]

/-- C99: every UTF-16 text is shown. -/
theorem C99_every_text (s : PyStr) (h : ∀ c ∈ s, Scalar c) :
    previewText (encodeUtf16le s) = .ok s ∧ ∃ b, previewUtf8 (encodeUtf16le s) = .ok b ∧ decodeUtf8 b = some s := by
  have := utf16leDecode_encode s h
  exact ⟨this, (C99_preview _ s this).2⟩

/-- C99: if `PrvText.utf8` can be read, it is the text of the stream without at most three bytes at
its end. -/
theorem C99_utf8_partial (data b : Bytes) (h : previewUtf8 data = .ok b) :
    ∃ p r s, data = p ++ r ∧ r.length ≤ 3 ∧ previewText p = .ok s ∧ decodeUtf8 b = some s := by
  unfold previewUtf8 at h
  simp only [bind, Except.bind] at h
  split at h
  · cases h
  rename_i s hs
  obtain ⟨p, r, h1, h2, h3⟩ := utf16leStream_inv data s hs
  exact ⟨p, r, s, h1, h2, h3, decode_encode _ _ h⟩

/-- C99 fails for a stream that ends within a character: one form drops the bytes, the other
cannot be read. -/
theorem C99_incomplete_end (s : PyStr) (x : UInt8) (h : ∀ c ∈ s, Scalar c) :
    previewText (encodeUtf16le s ++ [x]) = .error .unicodeDecodeError ∧
    ∃ b, previewUtf8 (encodeUtf16le s ++ [x]) = .ok b ∧ decodeUtf8 b = some s := by
  have key : utf16leDecode (encodeUtf16le s ++ [x]) = .error .unicodeDecodeError ∧ utf16leStream (encodeUtf16le s ++ [x]) = .ok s := by
    induction s with
    | nil => exact ⟨by rw [show encodeUtf16le [] = [] from rfl, List.nil_append, utf16leDecode],
        by rw [show encodeUtf16le [] = [] from rfl, List.nil_append, utf16leStream]⟩
    | cons c s ih =>
      have hc := h c (by simp)
      obtain ⟨i1, i2⟩ := ih (fun c' hc' => h c' (by simp [hc']))
      rw [encodeUtf16le_cons]
      unfold units
      unfold Scalar at hc
      by_cases h1 : c < 0x10000
      · simp only [h1, if_true, List.map_cons, List.map_nil, List.flatten_cons, List.flatten_nil,
          List.append_nil, unitBytes, List.cons_append, List.nil_append]
        rw [utf16leDecode.eq_def, utf16leStream.eq_def]
        simp only [unitBytes_val c h1]
        rw [if_pos (by omega), if_pos (by omega), i1, i2]
        exact ⟨rfl, rfl⟩
      · simp only [h1, if_false, List.map_cons, List.map_nil, List.flatten_cons, List.flatten_nil,
          List.append_nil, unitBytes, List.cons_append, List.nil_append]
        rw [utf16leDecode.eq_def, utf16leStream.eq_def]
        simp only [unitBytes_val (0xD800 + (c - 0x10000) / 0x400) (by omega),
          unitBytes_val (0xDC00 + (c - 0x10000) % 0x400) (by omega)]
        rw [if_neg (by omega), if_pos (by omega), if_pos (by omega), if_neg (by omega), if_pos (by omega), if_pos (by omega), i1, i2]
        have e : 0x10000 + (0xD800 + (c - 0x10000) / 0x400 - 0xD800) * 0x400 +
            (0xDC00 + (c - 0x10000) % 0x400 - 0xDC00) = c := by omega
        simp only [bind, Except.bind, pure, Except.pure]
        rw [e]
        exact ⟨trivial, rfl⟩
  obtain ⟨b, hb⟩ := (utf8Encode_ok s).2 h
  refine ⟨key.1, b, ?_, decode_encode _ _ hb⟩
  unfold previewUtf8
  simp only [key.2, bind, Except.bind, hb]

/- The letter 가 and an emoji; half of the emoji; a lone low surrogate. -/
example : previewText [0x00, 0xAC, 0x3D, 0xD8, 0x00, 0xDE] = .ok [0xAC00, 0x1F600] ∧
    previewUtf8 [0x00, 0xAC, 0x3D, 0xD8, 0x00, 0xDE] = .ok [0xEA, 0xB0, 0x80, 0xF0, 0x9F, 0x98, 0x80] ∧
    previewUtf8 [0x00, 0xAC, 0x3D, 0xD8] = .ok [0xEA, 0xB0, 0x80] ∧ previewText [0x00, 0xAC, 0x3D, 0xD8] = .error .unicodeDecodeError ∧
    previewUtf8 [0x00, 0xAC, 0x00, 0xDE] = .error .unicodeDecodeError := by decide +kernel

end Hwp.Props
