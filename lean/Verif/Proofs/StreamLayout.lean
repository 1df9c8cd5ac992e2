/-
Which byte strings are read as record streams.
-/
import Verif.Spec.StreamLayout
import Verif.Proofs.Records
set_option linter.unusedSimpArgs false
set_option linter.unusedVariables false
namespace Hwp
open Spec

theorem le32_leNat (d : Bytes) (h : d.length = 4) : le32 (leNat d) = d := by
  have := leNat_lt d
  rw [h] at this
  rw [le32_eq _ (by omega)]
  have e := leBytes_leNat d
  rwa [h] at e

/-- Every word is put together of its fields. -/
theorem word_fields (w : Nat) : w = w % 1024 + 1024 * (w / 1024 % 1024) + 1048576 * (w / 1048576) := by omega

theorem decode_some {s rest : Bytes} {t l z : Nat} :
    decodeRecordHeader s = .ok (some ((t, l, z), rest)) ↔ ∃ h, s = h ++ rest ∧ IsHeader h t l z := by
  constructor
  · intro h
    obtain ⟨ht, hl, hz⟩ := decode_fields h
    by_cases h4 : s.length < 4
    · by_cases hs : s = []
      · subst hs
        simp [decodeRecordHeader, readU_nil, bind, Except.bind] at h
      · simp [decodeRecordHeader, readU_short h4 hs, bind, Except.bind] at h
    · have e : s = le32 (leNat (s.take 4)) ++ s.drop 4 := by
        rw [le32_leNat _ (by simp; omega), List.take_append_drop]
      have hw := leNat_lt (s.take 4)
      rw [show (s.take 4).length = 4 by simp; omega] at hw
      generalize leNat (s.take 4) = w at e hw
      generalize s.drop 4 = s' at e
      subst e
      rw [decode_word (by omega)] at h
      split at h
      · rename_i hc
        cases hr : readU 4 s' with
        | error e => rw [hr] at h; cases e <;> simp at h
        | ok v =>
          obtain ⟨z', rest'⟩ := v
          rw [hr] at h
          simp only [Except.ok.injEq, Option.some.injEq, Prod.mk.injEq] at h
          obtain ⟨⟨h1, h2, h3⟩, h4⟩ := h
          subst h4 h3
          obtain ⟨d, hd1, hd2, hd3⟩ := readU_ok hr
          refine ⟨le32 w ++ le32 z', ?_, ht, hl, Or.inr ⟨hz, ?_⟩⟩
          · rw [hd1, ← hd3, le32_leNat d hd2, List.append_assoc]
          · rw [← h1, ← h2, ← hc, ← word_fields]
      · rename_i hc
        simp only [Except.ok.injEq, Option.some.injEq, Prod.mk.injEq] at h
        obtain ⟨⟨h1, h2, h3⟩, h4⟩ := h
        subst h4
        refine ⟨le32 w, rfl, ht, hl, Or.inl ⟨by omega, ?_⟩⟩
        rw [← h1, ← h2, ← h3, ← word_fields]
  · rintro ⟨h, rfl, ht, hl, ⟨hz, rfl⟩ | ⟨hz, rfl⟩⟩
    · rw [decode_word (by omega)]
      rw [if_neg (by omega)]
      have h1 : (t + 1024 * l + 1048576 * z) / 1048576 = z := by omega
      have h2 : (t + 1024 * l + 1048576 * z) % 1024 = t := by omega
      have h3 : (t + 1024 * l + 1048576 * z) / 1024 % 1024 = l := by omega
      rw [h1, h2, h3]
    · rw [List.append_assoc, decode_word (by omega)]
      rw [if_pos (by omega), le32_eq _ hz, readU_append (by omega) (by omega)]
      have h2 : (t + 1024 * l + 1048576 * 4095) % 1024 = t := by omega
      have h3 : (t + 1024 * l + 1048576 * 4095) / 1024 % 1024 = l := by omega
      simp only [h2, h3]

theorem decode_none {s : Bytes} : decodeRecordHeader s = .ok none ↔
    s = [] ∨ ∃ t l, t < 1024 ∧ l < 1024 ∧ s = le32 (t + 1024 * l + 1048576 * 4095) := by
  constructor
  · intro h
    by_cases h4 : s.length < 4
    · by_cases hs : s = []
      · exact .inl hs
      · simp [decodeRecordHeader, readU_short h4 hs, bind, Except.bind] at h
    · right
      have e : s = le32 (leNat (s.take 4)) ++ s.drop 4 := by
        rw [le32_leNat _ (by simp; omega), List.take_append_drop]
      have hw := leNat_lt (s.take 4)
      rw [show (s.take 4).length = 4 by simp; omega] at hw
      generalize leNat (s.take 4) = w at e hw
      generalize s.drop 4 = s' at e
      subst e
      rw [decode_word (by omega)] at h
      split at h
      · rename_i hc
        cases hr : readU 4 s' with
        | error e =>
          rw [hr] at h
          obtain ⟨rfl, rfl⟩ | ⟨-, -, rfl⟩ := readU_error hr (by omega)
          · exact ⟨w % 1024, w / 1024 % 1024, by omega, by omega, by rw [← hc, ← word_fields, List.append_nil]⟩
          · simp at h
        | ok v => rw [hr] at h; simp at h
      · simp at h
  · rintro (rfl | ⟨t, l, ht, hl, rfl⟩)
    · simp [decodeRecordHeader, readU_nil, bind, Except.bind]
    · rw [← List.append_nil (le32 _), decode_word (by omega), if_pos (by omega), readU_nil]

theorem readRecord_some {s rest : Bytes} {n : Nat} {r : Record} :
    readRecord s n = .ok (some (r, rest)) ↔ ∃ h, s = h ++ r.payload ++ rest ∧ IsHeader h r.tagid r.level r.size ∧
      r.payload ≠ [] ∧ r.seqno = n ∧ (r.payload.length = r.size ∨ r.payload.length < r.size ∧ rest = []) := by
  constructor
  · intro h
    unfold readRecord at h
    simp only [bind, Except.bind, pure, Except.pure] at h
    cases hd : decodeRecordHeader s with
    | error e => simp [hd] at h
    | ok o =>
      rw [hd] at h
      cases o with
      | none => simp at h
      | some v =>
        obtain ⟨⟨t, l, z⟩, s'⟩ := v
        simp only at h
        cases hn : readn z s' with
        | error e => simp [hn] at h
        | ok w =>
          obtain ⟨d, r'⟩ := w
          rw [hn] at h
          simp only [Except.ok.injEq, Option.some.injEq, Prod.mk.injEq] at h
          obtain ⟨rfl, rfl⟩ := h
          obtain ⟨h1, h2, h3⟩ := readn_ok hn
          obtain ⟨hdr, h4, h5⟩ := decode_some.1 hd
          exact ⟨hdr, by rw [h4, h1, List.append_assoc], h5, h2, rfl, h3⟩
  · rintro ⟨hdr, rfl, hh, hp, rfl, hs⟩
    unfold readRecord
    rw [List.append_assoc, decode_some.2 ⟨hdr, rfl, hh⟩]
    simp only [bind, Except.bind, pure, Except.pure]
    have : readn r.size (r.payload ++ rest) = .ok (r.payload, rest) := by
      rcases hs with hs | ⟨hs, rfl⟩
      · exact readn_append hs (by rw [← hs]; exact List.length_pos_iff.2 hp)
      · rw [List.append_nil, readn_short (by omega) hp]
    rw [this]

theorem readRecord_none {s : Bytes} {n : Nat} : readRecord s n = .ok none ↔
    s = [] ∨ ∃ t l, t < 1024 ∧ l < 1024 ∧ s = le32 (t + 1024 * l + 1048576 * 4095) := by
  rw [← decode_none]
  unfold readRecord
  simp only [bind, Except.bind, pure, Except.pure]
  cases hd : decodeRecordHeader s with
  | error e => simp
  | ok o =>
    cases o with
    | none => simp
    | some v =>
      obtain ⟨⟨t, l, z⟩, s'⟩ := v
      cases hn : readn z s' <;> simp [hn]

/-- Exactly the streams that are read without error, and the records read. -/
theorem readRecordsFrom_iff (s : Bytes) (n : Nat) (rs : List Record) :
    readRecordsFrom s n = ⟨rs, none⟩ ↔
      ∃ front rs' tail last, s = front ++ tail ∧ rs = rs' ++ last ∧ Whole n front rs' ∧
        (tail = [] ∧ last = [] ∨ CutOff (n + rs'.length) tail last) := by
  constructor
  · induction hk : s.length using Nat.strongRecOn generalizing s n rs with
    | ind k ih =>
      intro h
      rw [readRecordsFrom_eq] at h
      cases h1 : readRecord s n with
      | error e => rw [h1] at h; simp [Gen.raise] at h
      | ok o =>
        rw [h1] at h
        cases o with
        | none =>
          obtain rfl : rs = [] := (congrArg Gen.out h).symm
          rcases readRecord_none.1 h1 with rfl | ⟨t, l, ht, hl, rfl⟩
          · exact ⟨[], [], [], [], rfl, rfl, .nil n, .inl ⟨rfl, rfl⟩⟩
          · exact ⟨[], [], _, [], rfl, rfl, .nil n, .inr (.header t l ht hl)⟩
        | some v =>
          obtain ⟨r, rest⟩ := v
          have hlt := readRecord_lt h1
          obtain ⟨hdr, rfl, hh, hp, rfl, hs⟩ := readRecord_some.1 h1
          simp only at h
          have hout := congrArg Gen.out h
          have herr := congrArg Gen.err h
          simp only [Gen.cons] at hout herr
          cases rs with
          | nil => simp at hout
          | cons r' rs =>
            simp only [List.cons.injEq] at hout
            obtain ⟨rfl, hout⟩ := hout
            rcases hs with hs | ⟨hs, rfl⟩
            · obtain ⟨front, rs', tail, last, rfl, rfl, hw, hc⟩ := ih _ (by omega) rest _ rs rfl (by
                rw [← hout, ← herr])
              refine ⟨hdr ++ r.payload ++ front, r :: rs', tail, last, by simp, rfl, ?_, ?_⟩
              · have := Whole.cons r.seqno hdr r.payload front r.tagid r.level rs' (by rw [hs]; exact hh) hp hw
                rw [hs] at this
                exact this
              · rw [List.length_cons, ← Nat.add_assoc, Nat.add_right_comm]; exact hc
            · rw [readRecordsFrom_eq, readRecord_nil] at hout
              obtain rfl : [] = rs := hout
              exact ⟨[], [], hdr ++ r.payload, [r], by simp, rfl, .nil _, .inr (.payload hdr r.payload r.tagid r.level r.size hh hp hs)⟩
  · rintro ⟨front, rs', tail, last, rfl, rfl, hw, hc⟩
    induction hw with
    | nil n =>
      simp only [List.nil_append, List.length_nil, Nat.add_zero] at hc ⊢
      rw [readRecordsFrom_eq]
      rcases hc with ⟨rfl, rfl⟩ | hc
      · rw [readRecord_nil]; rfl
      · cases hc with
        | header t l ht hl => rw [readRecord_none.2 (.inr ⟨t, l, ht, hl, rfl⟩)]; rfl
        | payload h p t l z hh hp hs =>
          rw [(readRecord_some (r := ⟨t, l, z, p, n⟩) (rest := [])).2 ⟨h, by simp, hh, hp, rfl, .inr ⟨hs, rfl⟩⟩]
          simp only
          rw [readRecordsFrom_eq, readRecord_nil]
          rfl
    | cons n h p rest t l rs hh hp hr ih =>
      rw [List.append_assoc, readRecordsFrom_eq,
        (readRecord_some (r := ⟨t, l, p.length, p, n⟩) (rest := rest ++ tail)).2 ⟨h, by simp, hh, hp, rfl, .inl rfl⟩]
      simp only
      rw [ih (by rw [List.length_cons] at hc; rw [Nat.add_assoc, Nat.add_comm 1]; exact hc)]
      rfl

theorem whole_sizes (n : Nat) (s : Bytes) (rs : List Record) (hw : Whole n s rs) : ∀ r ∈ rs, r.payload.length = r.size := by
  induction hw with
  | nil => simp
  | cons n h p rest t l rs hh hp hr ih =>
    intro r hr
    rcases List.mem_cons.1 hr with rfl | hr
    · rfl
    · exact ih r hr

end Hwp
