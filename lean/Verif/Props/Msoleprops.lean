/- Property C55: summary information properties are found by id. -/
import Verif.Proofs.Msoleprops
import Verif.Proofs.MsolepropsRead
import Verif.Props.Bintype
set_option linter.unusedSimpArgs false
namespace Hwp.Props
open Hwp Spec

/-! ### The readers are what `read_type` does for the declarations -/

/-- C55: the stream header is what the declaration `PropertySetStreamHeader` says. -/
theorem C55_stream_header_as_declared (s : Bytes) :
    readThen streamHeaderFromDict (readWhole .keyError none () tyStreamHeader s) = readStreamHeader s :=
  readThen_eq readsAs_streamHeader s

/-- C55: a property set header is what the declaration `PropertySetHeader` says. -/
theorem C55_set_header_as_declared (s : Bytes) :
    readThen propSetHeaderFromDict (readWhole .keyError none () tyPropSetHeader s) = readPropSetHeader s :=
  readThen_eq readsAs_propSetHeader s

/-- C55: the dictionary is what the declaration `Dictionary` says. -/
theorem C55_dictionary_as_declared (data : Bytes) (pos : Nat) :
    (readThen dictionaryFromDict (readWhole .keyError none () tyDictionary (data.drop pos))).map (·.1) =
      readDictionary data pos := by
  rw [readThen_eq readsAs_dictionary]
  unfold readDictionary
  simp only [bind, Except.bind]
  cases readNArray readDictEntry (data.drop pos) <;> rfl

/-- C55: the type of a value is what the declaration `TypedPropertyValue` says. -/
theorem C55_typed_value_as_declared (data : Bytes) (pos : Nat) :
    readProperty data pos =
      (match readWhole .keyError none () tyTypedValue (data.drop pos) with
      | .error e => .error e
      | .ok (v, s) =>
        match (do let c ← valueItem "type" v; valueNat c : Except PyErr Nat) with
        | .error e => .error e
        | .ok code => readVt code s) := by
  unfold readProperty readWhole tyTypedValue
  rw [readTy, readMembers]
  simp only [versionOk, if_true, readTy]
  cases readU 4 (data.drop pos) with
  | error e => simp [Except.map, leafResult]
  | ok p =>
    obtain ⟨n, r⟩ := p
    simp [Except.map, leafResult, readMembers, setField, valueItem, valueNat, bind, Except.bind]

/- The header of a property set with one property, and one byte too few. -/
example : readThen propSetHeaderFromDict (readWhole .keyError none () tyPropSetHeader
    [16, 0, 0, 0, 1, 0, 0, 0, 2, 0, 0, 0, 16, 0, 0, 0, 0xff]) = .ok ([⟨2, 16⟩], [0xff]) := by
  rw [C55_set_header_as_declared]; decide +kernel
example : readThen propSetHeaderFromDict (readWhole .keyError none () tyPropSetHeader
    [16, 0, 0, 0, 1, 0, 0, 0, 2, 0, 0, 0]) = .error .parseError := by
  rw [C55_set_header_as_declared]; decide +kernel

/-! ### Lookup -/

/-- C55: in a property set that could be read, asking for an id gives the value read at the
offset given by the table (the last entry for the id), and an id that is not in the table is
missing. -/
theorem C55_lookup (data : Bytes) (off : Nat) (props : List Prop_) (h : readPropertySet data off = .ok props) :
    ∃ descs r, readPropSetHeader (data.drop off) = .ok (descs, r) ∧ ∀ id,
      ((∀ d ∈ descs, d.id ≠ id) → propGet props id = .error .keyError) ∧
      (∀ d before after, descs = before ++ d :: after → d.id = id → (∀ e ∈ after, e.id ≠ id) →
        ∃ v, propGet props id = .ok v ∧
          (if id = 0 then readDictionary data (off + d.offset) else readProperty data (off + d.offset)) = .ok v) := by
  obtain ⟨descs, r, hh, hg⟩ := readPropertySet_get data off props h
  refine ⟨descs, r, hh, ?_⟩
  intro id
  have hg := hg id
  constructor
  · intro hn
    have : descs.reverse.find? (fun e => e.id = id) = none := by
      rw [List.find?_eq_none]
      intro d hd
      simpa using hn d (by simpa using hd)
    rw [this] at hg
    exact hg
  · intro d before after hd hid ha
    have : descs.reverse.find? (fun e => e.id = id) = some d := by
      rw [hd, List.reverse_append, List.reverse_cons, List.append_assoc, List.find?_append,
        List.find?_eq_none.2 (by intro e he; simpa using ha e (by simpa using he))]
      simp [hid]
    rw [this] at hg
    exact hg

/-- C55: every value that has an encoding is read from it. -/
theorem C55_value_read (data : Bytes) (pos : Nat) (v : PropValue) (hv : ValueOk v) (h : Holds data pos (encValue v)) :
    (∀ es, v = .dictionary es → readDictionary data pos = .ok v) ∧
    (¬ IsDictionary v → readProperty data pos = .ok v) := by
  refine ⟨?_, fun hd => readProperty_enc data pos v hv hd h⟩
  intro es he
  subst he
  exact readDictionary_enc data pos es hv h

/-- C55: summary information written as a property set with a dictionary: every stored
property is found under its id with its value, any other id is missing.  The values may be
stored anywhere in the stream, in any order.

Partial: the table must contain the dictionary (`C55_without_dictionary`), and the values must
be of the types integer (VT_I4), string (VT_LPWSTR) or time (VT_FILETIME)
(`C55_unknown_value_type`). -/
theorem C55_stored_properties_found_partial (data : Bytes) (bo ver sys : Nat) (fmtid : List Nat) (off size : Nat)
    (descs : List PropDesc) (value : Nat → PropValue)
    (hs : Holds data 0 (encStreamHeader bo ver sys clsidHwpSummary [(fmtid, off)]))
    (hbo : bo < 2 ^ 16) (hver : ver < 2 ^ 16) (hsys : sys < 2 ^ 32)
    (hf : fmtid.length = 16 ∧ ∀ b ∈ fmtid, b < 256) (hoff : off < 2 ^ 32) (hsize : size < 2 ^ 32)
    (hh : Holds data off (encPropSetHeader size descs)) (hl : descs.length < 2 ^ 32)
    (hd : ∀ d ∈ descs, d.id < 2 ^ 32 ∧ d.offset < 2 ^ 32)
    (hn : (descs.map PropDesc.id).Nodup) (h0 : 0 ∈ descs.map PropDesc.id)
    (hv : ∀ d ∈ descs, Holds data (off + d.offset) (encValue (value d.id)) ∧ ValueOk (value d.id) ∧
      (IsDictionary (value d.id) ↔ d.id = 0)) (id : Nat) :
    summaryGet data id = if id ∈ descs.map PropDesc.id then .ok (value id) else .error .keyError := by
  have hread : ∀ d ∈ descs, readById data d.id (off + d.offset) = .ok (value d.id) := by
    intro d hdm
    obtain ⟨a1, a2, a3⟩ := hv d hdm
    obtain ⟨b1, b2⟩ := C55_value_read data (off + d.offset) (value d.id) a2 a1
    unfold readById
    by_cases h : d.id = 0
    · rw [if_pos h]
      have := a3.2 h
      cases hval : value d.id with
      | dictionary es => rw [hval] at b1; exact b1 es rfl
      | i4 v => rw [hval] at this; exact this.elim
      | lpwstr v => rw [hval] at this; exact this.elim
      | filetime v => rw [hval] at this; exact this.elim
    · rw [if_neg h]
      exact b2 (fun hc => h (a3.1 hc))
  obtain ⟨r, hr⟩ := hs
  rw [List.drop_zero] at hr
  obtain ⟨r2, hr2⟩ := hh
  have hhdr : readPropSetHeader (data.drop off) = .ok (descs, r2) := by
    rw [← hr2]
    exact readPropSetHeader_enc size hsize descs hl hd r2
  obtain ⟨props, hp⟩ := readPropertySet_ok data off descs r2 hhdr
    (by simpa using h0) (fun d hdm => ⟨_, hread d hdm⟩)
  have hstream : readPropertySetStream data = .ok (clsidHwpSummary, [props]) := by
    unfold readPropertySetStream
    have : readStreamHeader data = .ok ((clsidHwpSummary, [(fmtid, off)]), r) := by
      rw [← hr]
      refine readStreamHeader_enc bo ver sys clsidHwpSummary [(fmtid, off)] hbo hver hsys (by decide) (by decide)
        (by simp) ?_ r
      intro s hs
      simp only [List.mem_singleton] at hs
      subst hs
      exact ⟨hf.1, hf.2, hoff⟩
    simp [this, bind, Except.bind, readPropertySets, hp, pure, Except.pure]
  unfold summaryGet
  simp only [hstream, bind, Except.bind, if_true]
  obtain ⟨descs', r', hh', hg⟩ := readPropertySet_get data off props hp
  rw [hhdr] at hh'
  simp only [Except.ok.injEq, Prod.mk.injEq] at hh'
  obtain ⟨rfl, rfl⟩ := hh'
  have hg := hg id
  by_cases hid : id ∈ descs.map PropDesc.id
  · rw [if_pos hid]
    obtain ⟨d, hdm, rfl⟩ := List.mem_map.1 hid
    rw [find_reverse_nodup descs hn d hdm] at hg
    obtain ⟨v, hv1, hv2⟩ := hg
    rw [hread d hdm] at hv2
    rw [hv1, ← hv2]
  · rw [if_neg hid]
    have : descs.reverse.find? (fun e => e.id = id) = none := by
      rw [List.find?_eq_none]
      intro d hdm
      simp only [decide_eq_true_eq]
      intro he
      exact hid (List.mem_map.2 ⟨d, by simpa using hdm, he⟩)
    rw [this] at hg
    exact hg

/-- The head of a stream with one property set at offset 48. -/
def sampleStreamHead : Bytes := encStreamHeader 0xfffe 0 0x10002 clsidHwpSummary [(clsidHwpSummary, 48)]

/-- A stream with a dictionary (empty), a title, and a number of pages. -/
def sampleSummary : Bytes :=
  sampleStreamHead ++ encPropSetHeader 80 [⟨0, 32⟩, ⟨0x0e, 36⟩, ⟨0x02, 44⟩] ++
    encValue (.dictionary []) ++ encValue (.i4 (-3)) ++ encValue (.lpwstr (ustr "Hi가"))

/- Title and page count are found; the subject is missing. -/
example : summaryGet sampleSummary 0x02 = .ok (.lpwstr (ustr "Hi가")) := by decide +kernel
example : summaryGet sampleSummary 0x0e = .ok (.i4 (-3)) := by decide +kernel
example : summaryGet sampleSummary 0x03 = .error .keyError := by decide +kernel
/- The same from the theorem: its hypotheses hold for the sample. -/
example (id : Nat) : summaryGet sampleSummary id =
    if id ∈ [0, 0x0e, 0x02] then
      .ok (if id = 0 then .dictionary [] else if id = 0x0e then .i4 (-3) else .lpwstr (ustr "Hi가"))
    else .error .keyError := by
  refine C55_stored_properties_found_partial sampleSummary 0xfffe 0 0x10002 clsidHwpSummary 48 80
    [⟨0, 32⟩, ⟨0x0e, 36⟩, ⟨0x02, 44⟩]
    (fun id => if id = 0 then .dictionary [] else if id = 0x0e then .i4 (-3) else .lpwstr (ustr "Hi가"))
    ?_ (by decide) (by decide) (by decide) (by decide) (by decide) (by decide) ?_ (by decide) (by decide)
    (by decide) (by decide) ?_ id
  · exact List.isPrefixOf_iff_prefix.1 (by decide +kernel)
  · exact List.isPrefixOf_iff_prefix.1 (by decide +kernel)
  · intro d hd
    simp only [List.mem_cons, List.not_mem_nil, or_false] at hd
    rcases hd with rfl | rfl | rfl
    · exact ⟨List.isPrefixOf_iff_prefix.1 (by decide +kernel), ⟨by decide, by simp⟩, by simp [IsDictionary]⟩
    · exact ⟨List.isPrefixOf_iff_prefix.1 (by decide +kernel), by simp [ValueOk, InRange]; decide, by simp [IsDictionary]⟩
    · refine ⟨List.isPrefixOf_iff_prefix.1 (by decide +kernel), ⟨?_, by decide⟩, by simp [IsDictionary]⟩
      intro c hc
      have e : ustr "Hi가" = [72, 105, 0xac00] := by decide +kernel
      have : c ∈ [72, 105, 0xac00] := e ▸ hc
      simp only [List.mem_cons, List.not_mem_nil, or_false] at this
      rcases this with rfl | rfl | rfl <;> (unfold Scalar; omega)

/-! ### Where it fails -/

/-- C55 fails without a dictionary: the dictionary is optional in the format, but a set
that has a property other than the code page and no dictionary cannot be read
(`None.get`, an `AttributeError`). -/
theorem C55_without_dictionary (data : Bytes) (off : Nat) (descs : List PropDesc) (r : Bytes)
    (hh : readPropSetHeader (data.drop off) = .ok (descs, r)) (hd : ∀ d ∈ descs, d.id ≠ 0 ∧ d.id ≠ 1)
    (hne : descs ≠ []) : readPropertySet data off = .error .attributeError := by
  have hf : ∀ k, (k = 0 ∨ k = 1) → (descMap descs).find? (fun d => d.id = k) = none := by
    intro k hk
    rw [List.find?_eq_none]
    intro d hdm
    have := hd d (mem_descMap descs d hdm)
    simp only [decide_eq_true_eq]
    omega
  have hfil : ∀ k, (k = 0 ∨ k = 1) → (descMap descs).filter (fun d => d.id ≠ k) = descMap descs := by
    intro k hk
    rw [List.filter_eq_self]
    intro d hdm
    have := hd d (mem_descMap descs d hdm)
    simp only [decide_eq_true_eq]
    omega
  have hm : ∃ d ds, descMap descs = d :: ds := by
    cases hmm : descMap descs with
    | cons d ds => exact ⟨d, ds, rfl⟩
    | nil =>
      obtain ⟨d, ds, rfl⟩ := List.exists_cons_of_ne_nil hne
      have := find_descMap d.id (d :: ds)
      rw [hmm] at this
      simp only [List.find?_nil] at this
      exact absurd this.symm (by rw [List.find?_eq_none]; intro h; exact absurd (by simp) (h d (by simp)))
  obtain ⟨d, ds, hm⟩ := hm
  unfold readPropertySet
  simp only [hh, bind, Except.bind, popDesc]
  rw [hf 1 (.inr rfl), hfil 1 (.inr rfl), hf 0 (.inl rfl), hfil 0 (.inl rfl), hm]
  rfl

/- A title and nothing else. -/
example : summaryGet (sampleStreamHead ++ encPropSetHeader 80 [⟨2, 16⟩] ++ encValue (.lpwstr (ustr "Hi"))) 2 =
    .error .attributeError := by decide +kernel

/-- C55 fails for value types other than the three known ones, such as the 16 bit integer
(VT_I2) that the format prescribes for the code page: the whole set is unreadable. -/
theorem C55_unknown_value_type (data : Bytes) (pos : Nat) (code : Nat) (bs : Bytes) (hc : code < 2 ^ 16)
    (hu : code ≠ 0x0003 ∧ code ≠ 0x001f ∧ code ≠ 0x0040) (h : Holds data pos (leBytes 4 code ++ bs)) :
    readProperty data pos = .error .keyError := by
  obtain ⟨r, hr⟩ := readProperty_code data pos code hc bs h
  rw [hr]
  unfold readVt
  rw [if_neg hu.1, if_neg hu.2.1, if_neg hu.2.2]

/- A set with a code page (VT_I2, 949), a dictionary and a title. -/
example : summaryGet (sampleStreamHead ++ encPropSetHeader 80 [⟨0, 32⟩, ⟨1, 36⟩, ⟨2, 44⟩] ++
    encValue (.dictionary []) ++ (leBytes 4 2 ++ leBytes 4 949) ++ encValue (.lpwstr (ustr "Hi"))) 2 =
    .error .keyError := by decide +kernel

/-- C55: the type code is taken from 17 bits: the lowest bit of the padding after the 16 bit
type makes a known type unknown. -/
theorem C55_type_code_has_17_bits (v : Int) :
    ∃ data, Holds data 0 (leBytes 2 0x0003 ++ leBytes 2 1 ++ encodeInt .INT32 v) ∧
      readProperty data 0 = .error .keyError := by
  refine ⟨leBytes 2 0x0003 ++ leBytes 2 1 ++ encodeInt .INT32 v, by simp [Holds], ?_⟩
  unfold readProperty
  rw [List.drop_zero]
  have : leBytes 2 0x0003 ++ leBytes 2 1 ++ encodeInt .INT32 v = leBytes 4 0x10003 ++ encodeInt .INT32 v := rfl
  rw [this, readU_append (by decide) (by decide)]
  rfl

/-- C55: the identifiers used by the summary information are distinct. -/
theorem C55_summary_ids_distinct : (summaryIds.map (·.2)).Nodup ∧ (summaryIds.map (·.1)).Nodup := by
  constructor <;> decide

/-! ### The class id -/

private theorem orParseError_ok {α : Type} {x : Except PyErr α} {a : α} (h : orParseError x = .ok a) : x = .ok a := by
  cases x with
  | ok b => simpa [orParseError] using h
  | error e => cases e <;> simp [orParseError] at h

private theorem readBytes_ok (n : Nat) : ∀ (s r : Bytes) (l : List Nat), readItems readByte n s = .ok (l, r) →
    s = l.map UInt8.ofNat ++ r ∧ l.length = n := by
  induction n with
  | zero => intro s r l h; simp [readItems] at h; obtain ⟨rfl, rfl⟩ := h; simp
  | succ n ih =>
    intro s r l h
    simp only [readItems, bind, Except.bind, pure, Except.pure] at h
    cases h1 : readByte s with
    | error e => simp [h1] at h
    | ok a =>
      obtain ⟨a, s'⟩ := a
      rw [h1] at h
      simp only at h
      cases h2 : readItems readByte n s' with
      | error e => simp [h2] at h
      | ok b =>
        obtain ⟨as, s''⟩ := b
        simp [h2] at h
        obtain ⟨rfl, rfl⟩ := h
        obtain ⟨i1, i2⟩ := ih _ _ _ h2
        obtain ⟨d, d1, d2, d3⟩ := readU_ok (orParseError_ok h1)
        match d, d2 with
        | [x], _ =>
          simp [leNat] at d3
          subst d3
          rw [d1, i1]
          simp [i2]

/-- C55: properties are only given from a stream whose class id, the sixteen bytes
from byte 8, is that of HWP summary information. -/
theorem C55_class_id (data : Bytes) (id : Nat) (v : PropValue) (h : summaryGet data id = .ok v) :
    (data.drop 8).take 16 = [0x60, 0xb6, 0xa2, 0x9f, 0x61, 0x10, 0xd4, 0x11, 0xb4, 0xc6, 0x00, 0x60, 0x97, 0xc0,
      0x9d, 0x8c] := by
  unfold summaryGet readPropertySetStream readStreamHeader at h
  simp only [bind, Except.bind, pure, Except.pure] at h
  cases h1 : readU16 data with
  | error e => simp [h1] at h
  | ok a1 =>
  rw [h1] at h; simp only at h
  cases h2 : readU16 a1.2 with
  | error e => simp [h2] at h
  | ok a2 =>
  rw [h2] at h; simp only at h
  cases h3 : readU32 a2.2 with
  | error e => simp [h3] at h
  | ok a3 =>
  rw [h3] at h; simp only at h
  cases h4 : readItems readByte 16 a3.2 with
  | error e => simp [h4] at h
  | ok a4 =>
  obtain ⟨cls, s4⟩ := a4
  rw [h4] at h; simp only at h
  cases h5 : readNArray readPropSetDesc s4 with
  | error e => simp [h5] at h
  | ok a5 =>
  rw [h5] at h; simp only at h
  cases h6 : readPropertySets data a5.1 with
  | error e => simp [h6] at h
  | ok a6 =>
  rw [h6] at h; simp only at h
  split at h
  · rename_i hc
    obtain ⟨d1, e1, l1, -⟩ := readU_ok (orParseError_ok h1)
    obtain ⟨d2, e2, l2, -⟩ := readU_ok (orParseError_ok h2)
    obtain ⟨d3, e3, l3, -⟩ := readU_ok (orParseError_ok h3)
    obtain ⟨e4, -⟩ := readBytes_ok 16 _ _ _ h4
    have hd : data.drop 8 = cls.map UInt8.ofNat ++ s4 := by
      rw [e1, e2, e3, e4, ← List.append_assoc, ← List.append_assoc]
      exact List.drop_left' (by simp [l1, l2, l3])
    rw [hd, hc]
    rfl
  · simp at h

/- The class id of another kind of property set. -/
example : summaryGet (encStreamHeader 0xfffe 0 0 (List.replicate 16 1) []) 2 = .error .typeError := by decide +kernel

end Hwp.Props
