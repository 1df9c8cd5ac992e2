/-
Properties C01–C04: record codec and record streams.
-/
import Verif.Proofs.Records
namespace Hwp.Props
open Hwp Hwp.Spec

/-! ### C01 -/

/-- C01: a header is encoded in the documented layout, and decoding it in front
of any bytes returns the fields and leaves exactly those bytes. -/
theorem C01_header_roundtrip (tagid level size : Nat) (rest : Bytes)
    (ht : tagid < 1024) (hl : level < 1024) (hs : size < 2 ^ 32) :
    ∃ hdr, encodeRecordHeader tagid level size = .ok hdr ∧
      hdr = headerBytes tagid level size ∧
      hdr.length = (if size < 0xfff then 4 else 8) ∧
      decodeRecordHeader (hdr ++ rest) = .ok (some ((tagid, level, size), rest)) := by
  refine ⟨_, encode_layout _ _ _ ht hl hs, rfl, ?_, decode_layout _ _ _ ht hl hs rest⟩
  unfold headerBytes
  split <;> simp

example : (0x3ff < 1024) ∧ (0x3ff < 1024) ∧ 0xfff < 2 ^ 32 ∧
    encodeRecordHeader 0x3ff 0x3ff 0xfff = .ok [255, 255, 255, 255, 255, 15, 0, 0] := by
  decide +kernel

/-! ### C02 -/

/-- The full statement of C02 for one list of records. -/
def RoundTrips (rs : List Spec.Rec) : Prop :=
  ∃ s, dumpRecords (rs.map (·.toRecord 0)) = .ok s ∧
    readRecords s = ⟨rs.mapIdx fun i r => r.toRecord i, none⟩

/-- C02 fails in the code: a record with an empty payload is written but reading
it back raises `Eof`. -/
theorem C02_roundtrip_fails_on_empty_payload :
    ¬ ∀ rs : List Spec.Rec, (∀ r ∈ rs, r.Fits) → RoundTrips rs := by
  intro h
  obtain ⟨s, h1, h2⟩ := h [⟨0x42, 0, []⟩] (by simp [Rec.Fits])
  have e : dumpRecords (([⟨0x42, 0, []⟩] : List Spec.Rec).map (·.toRecord 0)) = .ok [0x42, 0, 0, 0] := by decide +kernel
  rw [e] at h1
  injection h1 with h1
  subst h1
  have : (readRecords [0x42, 0, 0, 0]).err = some .eof := by decide +kernel
  rw [h2] at this
  cases this

/-- C02, for all lists of records with nonempty payloads.  Missing from the full
statement: records with empty payload (excluded by the counterexample above). -/
theorem C02_roundtrip_partial (rs : List Spec.Rec)
    (h : ∀ r ∈ rs, r.Fits ∧ r.payload ≠ []) : RoundTrips rs := by
  refine ⟨streamBytes rs, ?_, ?_⟩
  · have e : (rs.map (·.toRecord 0)).map Record.toSpec = rs := by
      rw [List.map_map]; exact List.map_id _
    rw [dumpRecords_eq, e]
    intro r hr
    obtain ⟨r', hr', rfl⟩ := List.mem_map.1 hr
    exact (h r' hr').1
  · have := readRecordsFrom_stream rs h [] 0
    simp only [List.append_nil, Nat.zero_add] at this
    unfold readRecords
    rw [this, readRecordsFrom_eq, readRecord_nil]
    simp [Gen.prepend, Gen.done]

example : RoundTrips [⟨0x10, 0, [1, 2]⟩, ⟨0x42, 1, [3]⟩, ⟨0x43, 2, List.replicate 5000 7⟩] :=
  C02_roundtrip_partial _ (by
    intro r hr
    simp only [List.mem_cons, List.not_mem_nil, or_false] at hr
    rcases hr with rfl | rfl | rfl
    · simp [Rec.Fits]
    · simp [Rec.Fits]
    · refine ⟨⟨by decide, by decide, ?_⟩, ?_⟩
      · rw [List.length_replicate]; decide
      · intro hc
        have := congrArg List.length hc
        rw [List.length_replicate] at this
        cases this)

/-- What dumping and re-reading does for every list of records: the records up
to the first one with an empty payload come back, then `Eof` is raised. -/
theorem C02_roundtrip_outcome (pre : List Spec.Rec) (r : Spec.Rec) (post : List Spec.Rec)
    (hpre : ∀ r ∈ pre, r.Fits ∧ r.payload ≠ []) (hr : r.Fits) (he : r.payload = [])
    (hpost : ∀ r ∈ post, r.Fits) :
    ∃ s, dumpRecords ((pre ++ r :: post).map (·.toRecord 0)) = .ok s ∧
      readRecords s = ⟨pre.mapIdx fun i r => r.toRecord i, some .eof⟩ := by
  refine ⟨streamBytes (pre ++ r :: post), ?_, ?_⟩
  · have e : ((pre ++ r :: post).map (·.toRecord 0)).map Record.toSpec = pre ++ r :: post := by
      rw [List.map_map]; exact List.map_id _
    rw [dumpRecords_eq, e]
    intro x hx
    obtain ⟨r', hr', rfl⟩ := List.mem_map.1 hx
    simp only [List.mem_append, List.mem_cons] at hr'
    rcases hr' with h | rfl | h
    · exact (hpre _ h).1
    · exact hr
    · exact hpost _ h
  · have e : streamBytes (pre ++ r :: post) = streamBytes pre ++ (r.bytes ++ streamBytes post) := by
      simp [streamBytes]
    unfold readRecords
    rw [e, readRecordsFrom_stream pre hpre, readRecordsFrom_eq, readRecord_empty r hr he]
    simp [Gen.prepend, Gen.raise]

example : Rec.Fits ⟨0x42, 0, []⟩ ∧ (⟨0x42, 0, []⟩ : Spec.Rec).payload = [] := by
  simp [Rec.Fits]

/-- Sequence numbers of the records read from any stream are 0, 1, 2, ... -/
theorem C02_seqno_consecutive (s : Bytes) :
    (readRecords s).out.map Record.seqno = List.range (readRecords s).out.length := by
  rw [List.range_eq_range']
  exact readRecordsFrom_seqno s 0

/-! ### C03 -/

/-- Reading `s` succeeds and dumping the records gives `s` again. -/
def Reexports (s : Bytes) : Prop :=
  ∃ rs, readRecords s = ⟨rs, none⟩ ∧ dumpRecords rs = .ok s

/-- C03 fails in the code for non-minimal size encodings: they are accepted but
re-exported in another form. -/
theorem C03_reexport_fails :
    ¬ ∀ s, (readRecords s).err = none → Reexports s := by
  intro h
  obtain ⟨rs, h1, h2⟩ := h [0x10, 0, 0xf0, 0xff, 1, 0, 0, 0, 0xaa] (by decide +kernel)
  have e : readRecords [0x10, 0, 0xf0, 0xff, 1, 0, 0, 0, 0xaa] = ⟨[⟨0x10, 0, 1, [0xaa], 0⟩], none⟩ := by
    decide +kernel
  rw [e] at h1
  injection h1 with h1 _
  subst h1
  revert h2
  decide +kernel

/-- C03: exactly the canonical streams are reproduced byte for byte.  Missing
from the full statement: accepted streams that are not canonical (non-minimal
sizes, truncated last payload, an extended header cut after its first word). -/
theorem C03_reexport_iff_canonical_partial (s : Bytes) : Reexports s ↔ Canonical s := by
  constructor
  · rintro ⟨rs, h1, h2⟩
    have hf := readRecordsFrom_fields s 0
    have : readRecordsFrom s 0 = ⟨rs, none⟩ := h1
    rw [this] at hf
    simp only at hf
    rw [dumpRecords_eq rs (fun r hr => (hf r hr).1)] at h2
    injection h2 with h2
    refine ⟨rs.map Record.toSpec, ?_, h2.symm⟩
    intro r hr
    obtain ⟨r', hr', rfl⟩ := List.mem_map.1 hr
    exact ⟨(hf r' hr').1, (hf r' hr').2.1⟩
  · rintro ⟨rs, h, rfl⟩
    obtain ⟨s, h1, h2⟩ := C02_roundtrip_partial rs h
    refine ⟨rs.mapIdx fun i r => r.toRecord i, ?_, ?_⟩
    rotate_left
    · rw [dumpRecords_eq (rs.mapIdx fun i r => r.toRecord i)]
      · congr 1
        have : (rs.mapIdx fun i r => r.toRecord i).map Record.toSpec = rs := by
          apply List.ext_getElem?
          intro i
          rw [List.getElem?_map, List.getElem?_mapIdx]
          cases rs[i]? <;> rfl
        rw [this]
      · intro r hr
        obtain ⟨i, hi, rfl⟩ := List.mem_mapIdx.1 hr
        exact (h _ (List.getElem_mem _)).1
    · have e : (rs.map (·.toRecord 0)).map Record.toSpec = rs := by
        rw [List.map_map]; exact List.map_id _
      rw [dumpRecords_eq, e] at h1
      · injection h1 with h1
        subst h1
        exact h2
      · intro r hr
        obtain ⟨r', hr', rfl⟩ := List.mem_map.1 hr
        exact (h r' hr').1

example : Canonical [0x10, 4, 0x20, 0, 0xaa, 0xbb] :=
  ⟨[⟨0x10, 1, [0xaa, 0xbb]⟩], by simp [Rec.Fits], by decide +kernel⟩

/-! ### C04 -/

/-- C04 fails in the code: a stream cut inside the last payload is read without
any error. -/
theorem C04_truncation_silently_accepted :
    ¬ ∀ (rs : List Spec.Rec) (k : Nat), (∀ r ∈ rs, r.Fits ∧ r.payload ≠ []) →
      k < (streamBytes rs).length →
      (∀ j, k ≠ (streamBytes (rs.take j)).length) →
      (readRecords ((streamBytes rs).take k)).err ≠ none := by
  intro h
  refine h [⟨0x10, 0, [1, 2]⟩] 5 (by simp [Rec.Fits]) (by decide +kernel) ?_ (by decide +kernel)
  intro j
  cases j <;> simp [streamBytes, Rec.bytes, headerBytes, le32]

/-- C04: what reading a cut stream does for every stream of nonempty records and
every cut that is not a record boundary.  All records before the cut are
delivered intact; then either an error is raised, or one more record is
delivered whose payload is shorter than its declared size (and a prefix of the
original), or the cut was exactly behind the first word of an extended header
and reading stops silently.  Missing from the full statement: an error in the
latter two cases (the code raises none). -/
theorem C04_truncation_partial (rs : List Spec.Rec) (k : Nat)
    (h : ∀ r ∈ rs, r.Fits ∧ r.payload ≠ [])
    (hk : k < (streamBytes rs).length)
    (hb : ∀ j, k ≠ (streamBytes (rs.take j)).length) :
    ∃ (j : Nat) (r : Spec.Rec), rs[j]? = some r ∧
      let before := (rs.take j).mapIdx fun i r => r.toRecord i
      let g := readRecords ((streamBytes rs).take k)
      (g.out = before ∧ g.err ≠ none) ∨
      (∃ p, g.out = before ++ [⟨r.tagid, r.level, r.payload.length, p, j⟩] ∧ g.err = none ∧
        p.length < r.payload.length ∧ p <+: r.payload) ∨
      (g.out = before ∧ g.err = none ∧ 0xfff ≤ r.payload.length ∧
        k = (streamBytes (rs.take j)).length + 4) := by
  obtain ⟨j, o, r, h1, h2, h3, h4⟩ := cut_locate rs k hk
  have ho : 0 < o := by
    rcases Nat.eq_zero_or_pos o with rfl | h'
    · exact absurd h3 (hb j)
    · exact h'
  have hj : j < rs.length := by
    rcases List.getElem?_eq_some_iff.1 h1 with ⟨hj, _⟩; exact hj
  refine ⟨j, r, h1, ?_⟩
  have hmem : r ∈ rs := List.mem_of_getElem? h1
  have hread := readRecordsFrom_stream (rs.take j)
    (fun r' hr' => h r' (List.mem_of_mem_take hr')) (r.bytes.take o) 0
  simp only [Nat.zero_add, List.length_take, Nat.min_eq_left (Nat.le_of_lt hj)] at hread
  simp only [readRecords, h4, hread, Gen.prepend]
  rcases readRecord_cut r (h r hmem).1 o j ho h2 with ⟨e, he⟩ | ⟨p, hp, hlt, hpre⟩ | ⟨hn, ho4, hz⟩
  · left
    rw [readRecordsFrom_eq, he]
    simp [Gen.raise]
  · right; left
    refine ⟨p, ?_, ?_, hlt, hpre⟩
    · rw [readRecordsFrom_eq, hp]
      simp only [Gen.cons]
      rw [readRecordsFrom_eq, readRecord_nil]
      simp [Gen.done]
    · rw [readRecordsFrom_eq, hp]
      simp only [Gen.cons]
      rw [readRecordsFrom_eq, readRecord_nil]
      simp [Gen.done]
  · right; right
    rw [readRecordsFrom_eq, hn]
    simp [Gen.done]
    omega

example : ∃ rs : List Spec.Rec, ∃ k, (∀ r ∈ rs, r.Fits ∧ r.payload ≠ []) ∧
    k < (streamBytes rs).length ∧ (∀ j, k ≠ (streamBytes (rs.take j)).length) := by
  refine ⟨[⟨0x10, 0, [1, 2]⟩], 5, by simp [Rec.Fits], by decide +kernel, ?_⟩
  intro j
  cases j <;> simp [streamBytes, Rec.bytes, headerBytes, le32]

/-- Cutting at a record boundary yields exactly the records before it. -/
theorem C04_boundary_cut (rs : List Spec.Rec) (j : Nat)
    (h : ∀ r ∈ rs, r.Fits ∧ r.payload ≠ []) :
    readRecords ((streamBytes rs).take (streamBytes (rs.take j)).length) =
      ⟨(rs.take j).mapIdx fun i r => r.toRecord i, none⟩ := by
  have e : streamBytes rs = streamBytes (rs.take j) ++ streamBytes (rs.drop j) := by
    unfold streamBytes
    rw [← List.flatten_append, ← List.map_append, List.take_append_drop]
  rw [e, List.take_left]
  have := readRecordsFrom_stream (rs.take j) (fun r' hr' => h r' (List.mem_of_mem_take hr')) [] 0
  simp only [List.append_nil, Nat.zero_add] at this
  unfold readRecords
  rw [this, readRecordsFrom_eq, readRecord_nil]
  simp [Gen.prepend, Gen.done]

end Hwp.Props
