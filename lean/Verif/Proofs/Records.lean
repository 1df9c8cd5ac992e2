/- Helper lemmas about the record codec. -/
import Verif.Model.Records
import Verif.Spec.Records
import Verif.Proofs.Bytes
set_option linter.unusedSimpArgs false
namespace Hwp
open Spec

theorem le32_eq (v : Nat) (_h : v < 4294967296) : Spec.le32 v = leBytes 4 v := by
  simp only [Spec.le32, leBytes]
  have h1 : v / 256 / 256 = v / 65536 := by omega
  have h2 : v / 65536 / 256 = v / 16777216 := by omega
  rw [h1, h2]

theorem hdr_arith (t l z : Nat) (ht : t < 1024) (hl : l < 1024) :
    ((z <<< 20) ||| (l <<< 10) ||| t) = t + 1024 * l + 1048576 * z := by
  rw [Nat.or_assoc, ← Nat.shiftLeft_add_eq_or_of_lt (i := 10) (by omega : t < 2^10),
    ← Nat.shiftLeft_add_eq_or_of_lt (i := 20)]
  · simp only [Nat.shiftLeft_eq]; omega
  · simp only [Nat.shiftLeft_eq]; omega

theorem hdr_tag (v : Nat) : v &&& 0x3ff = v % 1024 := by
  exact Nat.and_two_pow_sub_one_eq_mod v 10
theorem hdr_level (v : Nat) : (v >>> 10) &&& 0x3ff = v / 1024 % 1024 := by
  rw [hdr_tag, Nat.shiftRight_eq_div_pow]
theorem hdr_size (v : Nat) : (v >>> 20) &&& 0xfff = v / 1048576 % 4096 := by
  rw [Nat.shiftRight_eq_div_pow]; exact Nat.and_two_pow_sub_one_eq_mod _ 12

/-- The encoder produces the specified layout. -/
theorem encode_layout (t l z : Nat) (ht : t < 1024) (hl : l < 1024) (hz : z < 4294967296) :
    encodeRecordHeader t l z = .ok (headerBytes t l z) := by
  unfold encodeRecordHeader headerBytes
  by_cases h : z < 4095
  · simp only [h, if_true]
    rw [hdr_arith _ _ _ ht hl, le32_eq _ (by omega)]
    unfold packU
    rw [if_pos (by omega)]
  · simp only [h, if_false]
    rw [hdr_arith _ _ _ ht hl, le32_eq _ (by omega), le32_eq _ hz]
    unfold packU
    rw [if_pos (by omega), if_pos (by omega)]
    rfl

theorem decode_word {w : Nat} {rest : Bytes} (hw : w < 4294967296) :
    decodeRecordHeader (le32 w ++ rest) =
      if w / 1048576 = 4095 then
        match readU 4 rest with
        | .ok (z, rest') => .ok (some ((w % 1024, w / 1024 % 1024, z), rest'))
        | .error .eof => .ok none
        | .error e => .error e
      else .ok (some ((w % 1024, w / 1024 % 1024, w / 1048576), rest)) := by
  unfold decodeRecordHeader
  rw [le32_eq _ hw, readU_append (by omega) (by omega)]
  simp only [bind, Except.bind, pure, Except.pure, hdr_size]
  simp only [hdr_tag, Nat.shiftRight_eq_div_pow, Nat.reducePow]
  have : w / 1048576 % 4096 = w / 1048576 := by omega
  rw [this]
  by_cases h : w / 1048576 = 4095
  · simp only [h, if_true]
    rcases readU 4 rest with e | ⟨z, r⟩
    · cases e <;> rfl
    · rfl
  · simp only [h, if_false]

theorem decode_layout (t l z : Nat) (ht : t < 1024) (hl : l < 1024) (hz : z < 4294967296)
    (rest : Bytes) :
    decodeRecordHeader (headerBytes t l z ++ rest) = .ok (some ((t, l, z), rest)) := by
  unfold headerBytes
  by_cases h : z < 4095
  · simp only [h, if_true]
    rw [decode_word (by omega)]
    have h1 : (t + 1024 * l + 1048576 * z) / 1048576 = z := by omega
    have h2 : (t + 1024 * l + 1048576 * z) % 1024 = t := by omega
    have h3 : (t + 1024 * l + 1048576 * z) / 1024 % 1024 = l := by omega
    rw [h1, h2, h3, if_neg (by omega)]
  · simp only [h, if_false]
    rw [List.append_assoc, decode_word (by omega)]
    have h1 : (t + 1024 * l + 1048576 * 4095) / 1048576 = 4095 := by omega
    have h2 : (t + 1024 * l + 1048576 * 4095) % 1024 = t := by omega
    have h3 : (t + 1024 * l + 1048576 * 4095) / 1024 % 1024 = l := by omega
    rw [h1, h2, h3, if_pos rfl, le32_eq _ hz, readU_append (by omega) (by omega)]

theorem readRecordsFrom_eq (s : Bytes) (n : Nat) :
    readRecordsFrom s n = match readRecord s n with
      | .error e => .raise e
      | .ok none => .done
      | .ok (some (r, rest)) => .cons r (readRecordsFrom rest (n + 1)) := by
  rw [readRecordsFrom]
  split <;> simp_all

/-- The model record obtained by reading a specification record. -/
def Spec.Rec.toRecord (r : Spec.Rec) (seqno : Nat) : Record :=
  ⟨r.tagid, r.level, r.payload.length, r.payload, seqno⟩

theorem readRecord_bytes (r : Spec.Rec) (hr : r.Fits) (hp : r.payload ≠ []) (rest : Bytes) (n : Nat) :
    readRecord (r.bytes ++ rest) n = .ok (some (r.toRecord n, rest)) := by
  obtain ⟨h1, h2, h3⟩ := hr
  unfold readRecord Spec.Rec.bytes
  rw [List.append_assoc, decode_layout _ _ _ h1 h2 h3]
  simp only [bind, Except.bind, pure, Except.pure]
  rw [readn_append rfl (List.length_pos_iff.2 hp)]
  rfl

theorem readRecord_empty (r : Spec.Rec) (hr : r.Fits) (hp : r.payload = []) (rest : Bytes) (n : Nat) :
    readRecord (r.bytes ++ rest) n = .error .eof := by
  obtain ⟨h1, h2, h3⟩ := hr
  unfold readRecord Spec.Rec.bytes
  rw [List.append_assoc, decode_layout _ _ _ h1 h2 h3]
  simp only [bind, Except.bind, pure, Except.pure, hp, List.length_nil, readn_zero]

theorem readRecord_nil (n : Nat) : readRecord [] n = .ok none := by
  simp [readRecord, decodeRecordHeader, readU_nil, bind, Except.bind, pure, Except.pure]

/-- Reading well-formed records in front of any tail. -/
theorem readRecordsFrom_stream (rs : List Spec.Rec) (h : ∀ r ∈ rs, r.Fits ∧ r.payload ≠ [])
    (tail : Bytes) (n : Nat) :
    readRecordsFrom (streamBytes rs ++ tail) n =
      .prepend (rs.mapIdx fun i r => r.toRecord (n + i)) (readRecordsFrom tail (n + rs.length)) := by
  induction rs generalizing n with
  | nil => simp [streamBytes, Gen.prepend]
  | cons r rs ih =>
    have hr := h r (by simp)
    have : streamBytes (r :: rs) ++ tail = r.bytes ++ (streamBytes rs ++ tail) := by
      simp [streamBytes]
    rw [this, readRecordsFrom_eq, readRecord_bytes r hr.1 hr.2]
    simp only
    rw [ih (fun r' hr' => h r' (by simp [hr']))]
    simp only [Gen.prepend, Gen.cons, List.mapIdx_cons, List.length_cons, Nat.add_zero]
    have e1 : n + 1 + rs.length = n + (rs.length + 1) := by omega
    have e2 : (fun (i : Nat) (r : Spec.Rec) => r.toRecord (n + 1 + i)) =
        fun i r => r.toRecord (n + (i + 1)) := by
      funext i r; congr 1; omega
    rw [e1, e2]
    simp

theorem dumpRecord_eq (r : Record) (h1 : r.tagid < 1024) (h2 : r.level < 1024)
    (h3 : r.payload.length < 4294967296) :
    dumpRecord r = .ok (Spec.Rec.bytes ⟨r.tagid, r.level, r.payload⟩) := by
  simp [dumpRecord, encode_layout _ _ _ h1 h2 h3, bind, Except.bind, pure, Except.pure,
    Spec.Rec.bytes]

def Record.toSpec (r : Record) : Spec.Rec := ⟨r.tagid, r.level, r.payload⟩

theorem dumpRecords_eq (rs : List Record)
    (h : ∀ r ∈ rs, r.toSpec.Fits) :
    dumpRecords rs = .ok (streamBytes (rs.map Record.toSpec)) := by
  induction rs with
  | nil => rfl
  | cons r rs ih =>
    have hr := h r (by simp)
    simp only [dumpRecords, dumpRecord_eq r hr.1 hr.2.1 hr.2.2,
      ih (fun r' hr' => h r' (by simp [hr'])), bind, Except.bind, pure, Except.pure]
    rfl

end Hwp

namespace Hwp
open Spec

@[simp] theorem le32_length (v : Nat) : (le32 v).length = 4 := rfl

theorem decode_fields {s rest : Bytes} {t l z : Nat}
    (h : decodeRecordHeader s = .ok (some ((t, l, z), rest))) :
    t < 1024 ∧ l < 1024 ∧ z < 4294967296 := by
  unfold decodeRecordHeader at h
  simp only [bind, Except.bind, pure, Except.pure, hdr_size] at h
  simp only [hdr_tag, Nat.shiftRight_eq_div_pow, Nat.reducePow] at h
  cases h1 : readU 4 s with
  | error e => rw [h1] at h; cases e <;> simp at h
  | ok v =>
    obtain ⟨v, s'⟩ := v
    obtain ⟨d, -, hd, hv⟩ := readU_ok h1
    have hlt := leNat_lt d
    rw [hd, hv] at hlt
    rw [h1] at h
    simp only at h
    by_cases hc : v / 1048576 % 4096 = 4095
    · simp only [hc, if_true] at h
      cases h2 : readU 4 s' with
      | error e => rw [h2] at h; cases e <;> simp at h
      | ok w =>
        obtain ⟨w, s''⟩ := w
        obtain ⟨d', -, hd', hv'⟩ := readU_ok h2
        have hlt' := leNat_lt d'
        rw [hd', hv'] at hlt'
        rw [h2] at h
        simp at h
        omega
    · simp only [hc, if_false] at h
      simp at h
      omega

theorem readRecord_fields {s rest : Bytes} {n : Nat} {r : Record}
    (h : readRecord s n = .ok (some (r, rest))) :
    r.toSpec.Fits ∧ r.payload ≠ [] ∧ r.payload.length ≤ r.size ∧ r.seqno = n := by
  unfold readRecord at h
  simp only [bind, Except.bind, pure, Except.pure] at h
  cases h1 : decodeRecordHeader s with
  | error e => simp [h1] at h
  | ok o =>
    rw [h1] at h
    cases o with
    | none => simp at h
    | some v =>
      obtain ⟨⟨t, l, z⟩, s'⟩ := v
      obtain ⟨ht, hl, hz⟩ := decode_fields h1
      simp only at h
      cases h2 : readn z s' with
      | error e => simp [h2] at h
      | ok w =>
        obtain ⟨d, r'⟩ := w
        obtain ⟨-, hd, hlen⟩ := readn_ok h2
        simp [h2] at h
        obtain ⟨h, -⟩ := h
        subst h
        refine ⟨⟨ht, hl, ?_⟩, hd, ?_, rfl⟩
        · simp only [Record.toSpec]; omega
        · simp only; omega

theorem readRecordsFrom_fields (s : Bytes) (n : Nat) :
    ∀ r ∈ (readRecordsFrom s n).out, r.toSpec.Fits ∧ r.payload ≠ [] ∧ r.payload.length ≤ r.size := by
  induction hk : s.length using Nat.strongRecOn generalizing s n with
  | ind k ih =>
    rw [readRecordsFrom_eq]
    cases h1 : readRecord s n with
    | error e => simp [Gen.raise]
    | ok o =>
      cases o with
      | none => simp [Gen.done]
      | some v =>
        obtain ⟨r, rest⟩ := v
        have := readRecord_lt h1
        have hf := readRecord_fields h1
        simp only [Gen.cons, List.mem_cons]
        rintro r' (rfl | hr')
        · exact ⟨hf.1, hf.2.1, hf.2.2.1⟩
        · exact ih _ (by omega) rest (n+1) rfl r' hr'

/-- The sequence numbers of the records read are consecutive. -/
theorem readRecordsFrom_seqno (s : Bytes) (n : Nat) :
    (readRecordsFrom s n).out.map Record.seqno = (List.range' n (readRecordsFrom s n).out.length) := by
  induction hk : s.length using Nat.strongRecOn generalizing s n with
  | ind k ih =>
    rw [readRecordsFrom_eq]
    cases h1 : readRecord s n with
    | error e => simp [Gen.raise]
    | ok o =>
      cases o with
      | none => simp [Gen.done]
      | some v =>
        obtain ⟨r, rest⟩ := v
        have := readRecord_lt h1
        have hf := readRecord_fields h1
        simp only [Gen.cons, List.map_cons, List.length_cons, List.range'_succ]
        rw [ih _ (by omega) rest (n+1) rfl, hf.2.2.2]

/-- Outcomes of reading a proper nonempty prefix of one record's bytes. -/
theorem readRecord_cut (r : Spec.Rec) (hr : r.Fits) (o : Nat) (n : Nat)
    (h0 : 0 < o) (ho : o < r.bytes.length) :
    (∃ e, readRecord (r.bytes.take o) n = .error e) ∨
    (∃ p, readRecord (r.bytes.take o) n = .ok (some (⟨r.tagid, r.level, r.payload.length, p, n⟩, [])) ∧
       p.length < r.payload.length ∧ p <+: r.payload) ∨
    (readRecord (r.bytes.take o) n = .ok none ∧ o = 4 ∧ 4095 ≤ r.payload.length) := by
  obtain ⟨h1, h2, h3⟩ := hr
  by_cases hlen : (headerBytes r.tagid r.level r.payload.length).length ≤ o
  · -- header complete
    have htake : r.bytes.take o = headerBytes r.tagid r.level r.payload.length ++
        r.payload.take (o - (headerBytes r.tagid r.level r.payload.length).length) := by
      unfold Spec.Rec.bytes
      rw [List.take_append, List.take_of_length_le hlen]
    have hbl : r.bytes.length = (headerBytes r.tagid r.level r.payload.length).length + r.payload.length := by
      simp [Spec.Rec.bytes]
    rw [htake]
    unfold readRecord
    rw [decode_layout _ _ _ h1 h2 h3]
    simp only [bind, Except.bind, pure, Except.pure]
    generalize hm : o - (headerBytes r.tagid r.level r.payload.length).length = m
    by_cases hm0 : m = 0
    · left
      subst hm0
      rw [List.take_zero, readn_nil]
      exact ⟨_, rfl⟩
    · right; left
      have hlt : (r.payload.take m).length < r.payload.length := by
        rw [List.length_take]; omega
      rw [readn_short (Nat.le_of_lt hlt)]
      · exact ⟨_, rfl, hlt, List.take_prefix _ _⟩
      · intro hc
        have := congrArg List.length hc
        rw [List.length_take] at this
        simp at this
        rcases this with h | h
        · exact hm0 h
        · simp [h] at hlt
  · -- header incomplete
    have htake : r.bytes.take o = (headerBytes r.tagid r.level r.payload.length).take o := by
      unfold Spec.Rec.bytes
      rw [List.take_append_of_le_length (by omega)]
    rw [htake]
    by_cases ho4 : o < 4
    · left
      have hl : ((headerBytes r.tagid r.level r.payload.length).take o).length = o := by
        rw [List.length_take]; omega
      unfold readRecord decodeRecordHeader
      rw [readU_short (w := 4) (by omega) (by intro hc; rw [hc] at hl; simp at hl; omega)]
      exact ⟨.structError, rfl⟩
    · unfold headerBytes at hlen ⊢
      by_cases hz : r.payload.length < 4095
      · simp [hz] at hlen; omega
      · simp only [hz, if_false] at hlen ⊢
        have e : (le32 (r.tagid + 1024 * r.level + 1048576 * 4095) ++ le32 r.payload.length).take o =
            le32 (r.tagid + 1024 * r.level + 1048576 * 4095) ++ (le32 r.payload.length).take (o - 4) := by
          rw [List.take_append, List.take_of_length_le (by simp; omega)]; simp
        rw [e]
        have hw : (r.tagid + 1024 * r.level + 1048576 * 4095) / 1048576 = 4095 := by omega
        unfold readRecord
        rw [decode_word (by omega), hw, if_pos rfl]
        by_cases ho' : o = 4
        · right; right
          subst ho'
          simp [readU_nil, bind, Except.bind, pure, Except.pure]
          omega
        · left
          have hl : ((le32 r.payload.length).take (o - 4)).length = o - 4 := by
            rw [List.length_take]; simp at hlen ⊢; omega
          rw [readU_short (w := 4) (by simp at hlen; omega) (by intro hc; rw [hc] at hl; simp at hl; omega)]
          exact ⟨.structError, rfl⟩

/-- Locate a cut position inside a stream. -/
theorem cut_locate (rs : List Spec.Rec) (k : Nat) (hk : k < (streamBytes rs).length) :
    ∃ j o r, rs[j]? = some r ∧ o < r.bytes.length ∧
      k = (streamBytes (rs.take j)).length + o ∧
      (streamBytes rs).take k = streamBytes (rs.take j) ++ r.bytes.take o := by
  induction rs generalizing k with
  | nil => simp [streamBytes] at hk
  | cons r rs ih =>
    have hs : streamBytes (r :: rs) = r.bytes ++ streamBytes rs := by simp [streamBytes]
    by_cases h : k < r.bytes.length
    · refine ⟨0, k, r, rfl, h, by simp [streamBytes], ?_⟩
      rw [hs, List.take_append_of_le_length (by omega)]
      simp [streamBytes]
    · rw [hs, List.length_append] at hk
      obtain ⟨j, o, r', h1, h2, h3, h4⟩ := ih (k - r.bytes.length) (by omega)
      refine ⟨j + 1, o, r', by simpa using h1, h2, ?_, ?_⟩
      · have : streamBytes ((r :: rs).take (j+1)) = r.bytes ++ streamBytes (rs.take j) := by
          simp [streamBytes]
        rw [this, List.length_append]; omega
      · have : streamBytes ((r :: rs).take (j+1)) = r.bytes ++ streamBytes (rs.take j) := by
          simp [streamBytes]
        rw [this, hs, List.take_append, List.take_of_length_le (by omega), h4]
        simp

theorem readRecords_seqno_at {s : Bytes} {i : Nat} {r : Record}
    (h : (readRecords s).out[i]? = some r) : r.seqno = i := by
  have hs := readRecordsFrom_seqno s 0
  have : ((readRecordsFrom s 0).out.map Record.seqno)[i]? = some r.seqno := by
    rw [List.getElem?_map]
    have : (readRecordsFrom s 0).out[i]? = some r := h
    rw [this]; rfl
  have hlt : i < (readRecordsFrom s 0).out.length := (List.getElem?_eq_some_iff.1 h).1
  rw [hs, List.getElem?_range' hlt] at this
  simp at this
  omega

end Hwp
