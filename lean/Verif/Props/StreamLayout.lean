/-
C78: a document that cannot be read completely is never shown as if it were.
C79: which byte strings are read as record streams.
-/
import Verif.Proofs.StreamLayout
import Verif.Proofs.DocFail
import Verif.Props.Document
set_option autoImplicit false
namespace Hwp.Props
open Hwp Spec

/-! ### C78 nothing is left out silently -/

/-- C78: if the XML form of a document is delivered without exception, then all its streams were
read to their end, and every record of them became a model. -/
theorem C78_complete (env : XmlEnv) (rd : ModelReader Fields) (filetime : Nat → PyStr) (d : DocSource)
    (h : (documentXml env rd filetime d).err = none) (s : Bytes) (hs : s = d.docinfo ∨ ∃ i, (i, s) ∈ d.sections) :
    (readRecords s).err = none ∧ (streamModels rd s).err = none ∧
    (streamModels rd s).out.map PModel.record = (readRecords s).out := by
  obtain ⟨-, h2, h3⟩ := documentEvents_fails rd filetime d ((modelToXml_fails _ _).1 h).1
  have : (streamModels rd s).err = none := by
    rcases hs with rfl | ⟨i, hi⟩
    · exact h2
    · exact h3 _ hi
  obtain ⟨h4, h5⟩ := streamModels_all rd s this
  exact ⟨h4, this, h5⟩

/-- C78: an exception in any stream of the document, or in any event of it, ends the XML form of
the document with an exception. -/
theorem C78_unreadable (env : XmlEnv) (rd : ModelReader Fields) (filetime : Nat → PyStr) (d : DocSource)
    (h : (streamModels rd d.docinfo).err ≠ none ∨ (∃ s ∈ d.sections, (streamModels rd s.2).err ≠ none) ∨
      (∃ s ∈ d.sections, (readRecords s.2).err ≠ none) ∨
      ∃ e ∈ (documentEvents rd filetime d).out, (xmlOfEvent env e).err ≠ none) :
    (documentXml env rd filetime d).err ≠ none := by
  intro he
  obtain ⟨h1, h2⟩ := (modelToXml_fails _ _).1 he
  obtain ⟨-, h3, h4⟩ := documentEvents_fails rd filetime d h1
  rcases h with h | ⟨s, hs, h⟩ | ⟨s, hs, h⟩ | ⟨e, hm, h⟩
  · exact h h3
  · exact h (h4 s hs)
  · exact h (streamModels_all rd _ (h4 s hs)).1
  · exact h (h2 e hm)

/-- A document with a second section of which two bytes are left. -/
def damagedDoc : DocSource := { sampleDoc with sections := [(0, sampleBody), (1, [66, 0])] }

example : (documentXml sampleEnv (directReader [5, 0, 1, 7]) (fun _ => []) damagedDoc).err = some .structError := by decide +kernel
example : (documentXml sampleEnv (directReader [5, 0, 1, 7]) (fun _ => []) sampleDoc).err = none ∧
    (readRecords sampleBody).out.length = 4 := by decide +kernel

/-! ### C79 streams that were cut off -/

/-- C79 fails: a stream is read without exception although part of its last payload is missing, and
although the size of its last record is. -/
theorem C79_cut_unnoticed :
    (¬ ∀ s rs, readRecords s = ⟨rs, none⟩ → Whole 0 s rs) ∧
    readRecords [0x43, 0x04, 0x40, 0, 65, 0, 13] = ⟨[⟨67, 1, 4, [65, 0, 13], 0⟩], none⟩ ∧
    readRecords [0x42, 0, 0x10, 0, 7, 0x43, 0x04, 0xf0, 0xff] = ⟨[⟨66, 0, 1, [7], 0⟩], none⟩ := by
  have e : readRecords [0x43, 0x04, 0x40, 0, 65, 0, 13] = ⟨[⟨67, 1, 4, [65, 0, 13], 0⟩], none⟩ := by decide +kernel
  refine ⟨fun h => ?_, e, by decide +kernel⟩
  have := whole_sizes _ _ _ (h _ _ e) _ (List.mem_cons_self ..)
  revert this
  decide

/-- C79: exactly the streams that are read without exception: complete records, which may be followed
by a first header word that announces a size word, or by a record with part of its payload.
Missing: that only complete records are accepted, which is false. -/
theorem C79_accepted_partial (s : Bytes) (rs : List Record) :
    readRecords s = ⟨rs, none⟩ ↔ ∃ front rs' tail last, s = front ++ tail ∧ rs = rs' ++ last ∧ Whole 0 front rs' ∧
      (tail = [] ∧ last = [] ∨ CutOff rs'.length tail last) := by
  have := readRecordsFrom_iff s 0 rs
  simp only [Nat.zero_add] at this
  exact this

/-- C79: complete records are read as they are, whatever form their headers have. -/
theorem C79_whole_read (s : Bytes) (rs : List Record) (h : Whole 0 s rs) : readRecords s = ⟨rs, none⟩ :=
  (C79_accepted_partial s rs).2 ⟨s, rs, [], [], by simp, by simp, h, .inl ⟨rfl, rfl⟩⟩

/-- C79: who compares the sizes of the records with their payloads notices a payload that was cut
off: all other streams that are accepted are complete but for at most four bytes at the end. -/
theorem C79_sizes_tell (s : Bytes) (rs : List Record) (h : readRecords s = ⟨rs, none⟩) :
    (∀ r ∈ rs, r.payload.length = r.size) ↔
      Whole 0 s rs ∨ ∃ front t l, t < 1024 ∧ l < 1024 ∧ s = front ++ le32 (t + 1024 * l + 1048576 * 4095) ∧ Whole 0 front rs := by
  constructor
  · intro hsize
    obtain ⟨front, rs', tail, last, rfl, rfl, hw, ⟨rfl, rfl⟩ | hc⟩ := (C79_accepted_partial s rs).1 h
    · left; simpa using hw
    · cases hc with
      | header t l ht hl => right; exact ⟨front, t, l, ht, hl, rfl, by simpa using hw⟩
      | payload hd p t l z hh hp hs =>
        have := hsize ⟨t, l, z, p, rs'.length⟩ (by simp)
        dsimp only at this
        omega
  · rintro (hw | ⟨front, t, l, -, -, -, hw⟩)
    · exact whole_sizes _ _ _ hw
    · exact whole_sizes _ _ _ hw

/-- C79: the accepted records never have more payload than their size says. -/
theorem C79_never_longer (s : Bytes) : ∀ r ∈ (readRecords s).out, r.payload ≠ [] ∧ r.payload.length ≤ r.size :=
  fun r hr => (readRecordsFrom_fields s 0 r hr).2

/-- C79: trailing bytes that are no header word are reported. -/
theorem C79_trailing_reported (s : Bytes) (rs : List Record) (h : Whole 0 s rs) (t : Bytes) (ht : t ≠ []) (hl : t.length < 4) :
    readRecords (s ++ t) = ⟨rs, some .structError⟩ := by
  have key : ∀ n s rs, Whole n s rs → readRecordsFrom (s ++ t) n = ⟨rs, some .structError⟩ := by
    intro n s rs hw
    induction hw with
    | nil n =>
      have : readRecord t n = .error .structError := by
        simp [readRecord, decodeRecordHeader, readU_short hl ht, bind, Except.bind]
      rw [List.nil_append, readRecordsFrom_eq, this]
      rfl
    | cons n h p rest tag l rs hh hp hr ih =>
      rw [List.append_assoc, readRecordsFrom_eq,
        (readRecord_some (r := ⟨tag, l, p.length, p, n⟩) (rest := rest ++ t)).2 ⟨h, by simp, hh, hp, rfl, .inl rfl⟩]
      simp only
      rw [ih]
      rfl
  exact key 0 s rs h

example : Whole 0 [0x42, 0, 0x10, 0, 7] [⟨66, 0, 1, [7], 0⟩] :=
  .cons 0 [0x42, 0, 0x10, 0] [7] [] 66 0 [] ⟨by decide, by decide, .inl ⟨by decide, by decide⟩⟩ (by decide) (.nil 1)
example : Whole 0 [0x42, 0, 0xf0, 0xff, 1, 0, 0, 0, 7] [⟨66, 0, 1, [7], 0⟩] :=
  .cons 0 [0x42, 0, 0xf0, 0xff, 1, 0, 0, 0] [7] [] 66 0 [] ⟨by decide, by decide, .inr ⟨by decide, by decide⟩⟩ (by decide) (.nil 1)
example : readRecords [0x42, 0, 0x10, 0, 7, 0x43] = ⟨[⟨66, 0, 1, [7], 0⟩], some .structError⟩ := by decide +kernel

end Hwp.Props
