/-
C81: the command `hwp5proc records`.
-/
import Verif.Proofs.Commands
set_option autoImplicit false
set_option linter.unusedSimpArgs false
namespace Hwp.Props
open Hwp Spec

/-! ### C81: which records -/

/-- C81: the integers of the command line are the texts of Python's integers. -/
theorem C81_integers (s : PyStr) (n : Int) : pyInt s = some n ↔ IntText s n := pyInt_iff s n

example : IntText (lit " +1_0 ") 10 :=
  ⟨lit " ", lit "+1_0", lit " ", by decide, by unfold Blank; decide, by unfold Blank; decide, .plus _ _ (.underscore [0x31] 1 0 (.digit 1 (by decide)) (by decide))⟩

theorem range_select (s : Bytes) (a b : Nat) :
    (recordsRange s a b).out = (readRecords s).out.filter fun r => a ≤ r.seqno ∧ r.seqno < b := by
  have h := C02_seqno_consecutive s
  unfold recordsRange islice
  generalize (readRecords s).out = rs at h ⊢
  have key : ∀ (rs : List Record) (k : Nat), rs.map Record.seqno = List.range' k rs.length →
      rs.filter (fun r => a ≤ r.seqno ∧ r.seqno < b) = (rs.take (b - k)).drop (a - k) := by
    intro rs
    induction rs with
    | nil => intro k _; simp
    | cons r rs ih =>
      intro k hk
      rw [List.map_cons, List.length_cons, List.range'_succ, List.cons.injEq] at hk
      obtain ⟨h1, h2⟩ := hk
      have := ih (k + 1) h2
      rw [List.filter_cons, this, h1]
      by_cases hb : k < b
      · rw [show b - k = (b - (k + 1)) + 1 by omega, List.take_succ_cons]
        by_cases ha : a ≤ k
        · rw [if_pos (by simp; omega), show a - k = 0 by omega, show a - (k + 1) = 0 by omega]
          rfl
        · rw [if_neg (by simp; omega), show a - k = (a - (k + 1)) + 1 by omega, List.drop_succ_cons]
      · rw [if_neg (by simp; omega), show b - k = 0 by omega, show b - (k + 1) = 0 by omega]
        simp
  rw [key rs 0 (by rw [h, List.range_eq_range'])]
  rfl

/-- C81: `--range` with the text of a range selects exactly the records with those numbers, in
order.  A stream that cannot be read to its end is reported only when the range reaches that far. -/
theorem C81_range (s : Bytes) (t : PyStr) (a b : Nat) (h : RangeText t a b) (ha : a ≤ sysMaxsize) (hb : b ≤ sysMaxsize) :
    (selectRecords (some t) none s).out = (readRecords s).out.filter (fun r => a ≤ r.seqno ∧ r.seqno < b) ∧
    (selectRecords (some t) none s).err =
      if max a b ≤ (readRecords s).out.length then none else (readRecords s).err := by
  have e : selectRecords (some t) none s = recordsRange s a b := by
    unfold selectRecords
    simp [parseRange_ok h, parseTreegroup, isliceArg_nat ha, isliceArg_nat hb, bind, Except.bind, pure, Except.pure]
  rw [e]
  exact ⟨range_select s a b, rfl⟩

example : sysMaxsize = 2 ^ 63 - 1 := by decide +kernel

/-- C81: every other nonempty text selects nothing and is a `ValueError`. -/
theorem C81_bad_range (s : Bytes) (t : PyStr) (ht : t ≠ [])
    (h : ¬ ∃ a b : Nat, RangeText t a b ∧ a ≤ sysMaxsize ∧ b ≤ sysMaxsize) :
    selectRecords (some t) none s = .raise .valueError := by
  unfold selectRecords
  by_cases hr : ∃ a b, RangeText t a b
  · obtain ⟨a, b, hr⟩ := hr
    by_cases ha : ∃ m : Nat, a = m ∧ m ≤ sysMaxsize
    · obtain ⟨m, rfl, hm⟩ := ha
      have hb : ¬ ∃ n : Nat, b = n ∧ n ≤ sysMaxsize := by
        rintro ⟨n, rfl, hn⟩
        exact h ⟨m, n, hr, hm, hn⟩
      simp [parseRange_ok hr, parseTreegroup, isliceArg_nat hm, isliceArg_err hb, bind, Except.bind, pure, Except.pure]
    · simp [parseRange_ok hr, parseTreegroup, isliceArg_err ha, bind, Except.bind, pure, Except.pure]
  · simp [parseRange_err ht hr, bind, Except.bind]

/-- C81: without options (or with an empty range) all records are selected. -/
theorem C81_all (s : Bytes) :
    selectRecords none none s = readRecords s ∧ selectRecords (some []) none s = readRecords s := by
  constructor <;> rfl

example : RangeText (lit "1-3") 1 3 :=
  .span (lit "1") (lit "3") 1 3 (by decide)
    ⟨[], _, [], rfl, by simp [Blank], by simp [Blank], .none _ 1 (.digit 1 (by decide))⟩
    ⟨[], _, [], rfl, by simp [Blank], by simp [Blank], .none _ 3 (.digit 3 (by decide))⟩

/-- Three records; the last two are children of the first. -/
def threeRecords : Bytes :=
  [0x42, 0, 0x10, 0, 0xaa, 0x43, 0x04, 0x10, 0, 0xbb, 0xff, 0x07, 0x10, 0, 0xcc]

example : (selectRecords (some (lit "1-3")) none threeRecords).out.map (·.payload) = [[0xbb], [0xcc]] := by
  decide +kernel
example : (selectRecords (some (lit "2")) none threeRecords).out.map (·.tagid) = [1023] := by decide +kernel
example : selectRecords (some (lit "-1")) none threeRecords = .raise .valueError := by decide +kernel
example : selectRecords (some (lit "1--1")) none threeRecords = .raise .valueError := by decide +kernel
example : selectRecords (some (lit "1:3")) none threeRecords = .raise .valueError := by decide +kernel

/-- C81: `--treegroup` with the text of a number selects that group of the partition of the
records at the records of level 0; a number that is too large is a `TypeError`, and every other
text is a `ValueError`. -/
theorem C81_treegroup (s : Bytes) (h : (readRecords s).err = none) :
    ∃ gs : List (List Record), gs.flatten = (readRecords s).out ∧
      (∀ g ∈ gs, g ≠ []) ∧ (∀ g ∈ gs.tail, ∃ r t, g = r :: t ∧ r.level = 0) ∧
      (∀ g ∈ gs, ∀ r ∈ g.tail, r.level ≠ 0) ∧
      (∀ (t : PyStr) (n : Nat), IntText t n → n ≤ sysMaxsize →
        selectRecords none (some t) s = match gs[n]? with
          | some g => .ofList g
          | none => .raise .typeError) ∧
      ∀ t : PyStr, (¬ ∃ n : Nat, IntText t n ∧ n ≤ sysMaxsize) → selectRecords none (some t) s = .raise .valueError := by
  obtain ⟨gs, h1, h2, h3, h4, h5⟩ := C05_groups_partition (readRecords s).out
  refine ⟨gs, h2, h3, h4, h5, ?_, ?_⟩
  · intro t n ht hn
    have e : groupByTop (readRecords s) = ⟨gs, none⟩ := by
      rw [← h1]; congr 1; exact Gen.ext rfl h
    have hg : recordsTreegroup s n = .ok gs[n]? := by
      unfold recordsTreegroup nth
      rw [e]
      cases hgn : gs[n]? <;> simp [hgn]
    unfold selectRecords
    cases hgn : gs[n]? <;>
      simp [parseRange, parseTreegroup, intArg_ok.2 ht, isliceArg_nat hn, hg, hgn, bind, Except.bind, pure, Except.pure]
  · intro t ht
    unfold selectRecords
    by_cases hi : ∃ n, IntText t n
    · obtain ⟨n, hi⟩ := hi
      have : ¬ ∃ m : Nat, n = m ∧ m ≤ sysMaxsize := by
        rintro ⟨m, rfl, hm⟩; exact ht ⟨m, hi, hm⟩
      simp [parseRange, parseTreegroup, intArg_ok.2 hi, isliceArg_err this, bind, Except.bind, pure, Except.pure]
    · simp [parseRange, parseTreegroup, intArg_err hi, bind, Except.bind, pure, Except.pure]

example : (selectRecords none (some (lit "0")) threeRecords).out.length = 3 := by decide +kernel
example : selectRecords none (some (lit "1")) threeRecords = .raise .typeError := by decide +kernel

/-! ### C81: what is written -/

theorem select_fits (range tg : Option PyStr) (s : Bytes) :
    ∀ r ∈ (selectRecords range tg s).out, r.toSpec.Fits ∧ r.payload ≠ [] := by
  intro r hr
  have := readRecordsFrom_fields s 0 r (selectRecords_mem range tg s r hr)
  exact ⟨this.1, this.2.1⟩

theorem dumpRecord_eq {r : Record} (h : r.toSpec.Fits) : dumpRecord r = .ok r.toSpec.bytes := by
  obtain ⟨hdr, h1, h2, -⟩ := C01_header_roundtrip r.tagid r.level r.payload.length [] h.1 h.2.1
    (by have := h.2.2; simpa [Record.toSpec] using this)
  unfold dumpRecord
  rw [h1, h2]
  rfl

/-- C81: `--raw` writes the selected records in the format of record streams, and fails only when
the stream cannot be read. -/
theorem C81_raw (range tg : Option PyStr) (s : Bytes) :
    recordsRaw (selectRecords range tg s) =
      ⟨streamBytes ((selectRecords range tg s).out.map fun r => ⟨r.tagid, r.level, r.payload⟩),
       (selectRecords range tg s).err⟩ := by
  unfold recordsRaw
  rw [writeEach_ok dumpRecord (fun r => r.toSpec.bytes) _ _ fun r hr => dumpRecord_eq (select_fits range tg s r hr).1]
  simp only [streamBytes, List.map_map]
  rfl

/-- C81: `--raw-header` writes the headers and `--raw-payload` the payloads of these records. -/
theorem C81_raw_parts (range tg : Option PyStr) (s : Bytes) :
    recordsRawHeader (selectRecords range tg s) =
      ⟨((selectRecords range tg s).out.map fun r => headerBytes r.tagid r.level r.payload.length).flatten,
       (selectRecords range tg s).err⟩ ∧
    recordsRawPayload (selectRecords range tg s) =
      ⟨((selectRecords range tg s).out.map fun r => r.payload).flatten, (selectRecords range tg s).err⟩ := by
  constructor
  · unfold recordsRawHeader
    rw [writeEach_ok _ (fun r => headerBytes r.tagid r.level r.payload.length)]
    intro r hr
    obtain ⟨hf, -⟩ := select_fits range tg s r hr
    obtain ⟨hdr, h1, h2, -⟩ := C01_header_roundtrip r.tagid r.level r.payload.length [] hf.1 hf.2.1
      (by have := hf.2.2; simpa [Record.toSpec] using this)
    rw [h1, h2]
  · unfold recordsRawPayload
    rw [writeEach_ok _ (fun r => r.payload)]
    intro r hr
    rfl

/-- C81: what `--raw` writes is a record stream again: reading it gives the tags, levels and
payloads of the selected records, numbered from 0. -/
theorem C81_raw_is_stream (range tg : Option PyStr) (s : Bytes) :
    readRecords (recordsRaw (selectRecords range tg s)).out =
      ⟨(selectRecords range tg s).out.mapIdx fun i r => ⟨r.tagid, r.level, r.payload.length, r.payload, i⟩, none⟩ := by
  rw [C81_raw]
  obtain ⟨x, h1, h2⟩ := C02_roundtrip_partial
    ((selectRecords range tg s).out.map fun r => (⟨r.tagid, r.level, r.payload⟩ : Spec.Rec)) (by
      intro r hr
      obtain ⟨r', hr', rfl⟩ := List.mem_map.1 hr
      exact select_fits range tg s r' hr')
  have e : x = streamBytes ((selectRecords range tg s).out.map fun r => (⟨r.tagid, r.level, r.payload⟩ : Spec.Rec)) := by
    rw [dumpRecords_eq] at h1
    · injection h1 with h1
      rw [← h1, List.map_map]
      congr 1
      exact List.map_id _
    · intro r hr
      obtain ⟨r', hr', rfl⟩ := List.mem_map.1 hr
      obtain ⟨r'', hr'', rfl⟩ := List.mem_map.1 hr'
      exact (select_fits range tg s r'' hr'').1
  rw [← e, h2]
  refine Gen.ext ?_ rfl
  apply List.ext_getElem?
  intro i
  simp only [List.getElem?_mapIdx, List.getElem?_map]
  cases (selectRecords range tg s).out[i]? <;> rfl

/-- C81: a canonically encoded stream is written back byte for byte. -/
theorem C81_raw_copy (s : Bytes) (h : Canonical s) : recordsRaw (selectRecords none none s) = ⟨s, none⟩ := by
  obtain ⟨rs, h1, h2⟩ := (C03_reexport_iff_canonical_partial s).2 h
  have hs : selectRecords none none s = ⟨rs, none⟩ := h1
  have hf : ∀ r ∈ rs, r.toSpec.Fits := by
    intro r hr
    exact (select_fits none none s r (by rw [hs]; exact hr)).1
  rw [C81_raw, hs]
  rw [dumpRecords_eq rs hf] at h2
  injection h2 with h2
  exact Gen.ext h2 rfl

/-- C81: adjacent ranges written one behind the other are the whole range. -/
theorem C81_raw_ranges_join (s : Bytes) (t u v : PyStr) (a b c : Nat)
    (ht : RangeText t a b) (hu : RangeText u b c) (hv : RangeText v a c)
    (hab : a ≤ b) (hbc : b ≤ c) (hc : c ≤ sysMaxsize) :
    (recordsRaw (selectRecords (some t) none s)).out ++ (recordsRaw (selectRecords (some u) none s)).out =
      (recordsRaw (selectRecords (some v) none s)).out := by
  rw [C81_raw, C81_raw, C81_raw]
  simp only
  rw [show ∀ x y : List Spec.Rec, streamBytes x ++ streamBytes y = streamBytes (x ++ y) by
    intro x y; simp [streamBytes], ← List.map_append]
  congr 2
  have e : ∀ {t : PyStr} {a b : Nat}, RangeText t a b → a ≤ sysMaxsize → b ≤ sysMaxsize →
      (selectRecords (some t) none s).out = ((readRecords s).out.take b).drop a := by
    intro t a b h ha hb
    rw [(C81_range s t a b h ha hb).1, ← range_select]; rfl
  rw [e ht (by omega) (Nat.le_trans hbc hc), e hu (Nat.le_trans hbc hc) hc, e hv (by omega) hc]
  generalize (readRecords s).out = rs
  have e1 : rs.take b = (rs.take c).take b := by rw [List.take_take, Nat.min_eq_left hbc]
  rw [e1]
  generalize rs.take c = l
  have e2 : l.drop b = (l.drop a).drop (b - a) := by rw [List.drop_drop]; congr 1; omega
  rw [List.drop_take, e2, List.take_append_drop]

example : recordsRaw (selectRecords none none threeRecords) = ⟨threeRecords, none⟩ := by decide +kernel
example : (recordsRaw (selectRecords (some (lit "1")) none threeRecords)).out = [0x43, 0x04, 0x10, 0, 0xbb] := by
  decide +kernel
example : (recordsRawHeader (selectRecords (some (lit "1-9")) none threeRecords)).out =
    [0x43, 0x04, 0x10, 0, 0xff, 0x07, 0x10, 0] := by decide +kernel
example : (recordsRawPayload (selectRecords none (some (lit "0")) threeRecords)).out = [0xaa, 0xbb, 0xcc] := by
  decide +kernel

/-! ### C81: the listing -/

/-- C81: the name of a tag is the one written in tagids.py, or `HWPTAG` with its distance from
the first tag. -/
theorem C81_tag_names (t : Nat) (n : PyStr) : TagName t n ↔ n = tagname t := tagname_iff t n

/-- C81: different tags have different names. -/
theorem C81_tag_names_differ (t u : Nat) (n : PyStr) (h : TagName t n) (h' : TagName u n) : t = u :=
  tagname_inj (((tagname_iff t n).1 h).symm.trans ((tagname_iff u n).1 h'))

/-- C81: `--simple` writes one line for each selected record. -/
theorem C81_listing (range tg : Option PyStr) (s : Bytes) :
    ∃ names : List PyStr, names.length = (selectRecords range tg s).out.length ∧
      (∀ x ∈ (selectRecords range tg s).out.zip names, TagName x.1.tagid x.2) ∧
      recordsSimple (selectRecords range tg s) =
        ⟨(((selectRecords range tg s).out.zip names).map fun x => listingLine x.1.seqno x.1.level x.2).flatten,
         (selectRecords range tg s).err⟩ := by
  generalize selectRecords range tg s = g
  refine ⟨g.out.map fun r => tagname r.tagid, by simp, ?_, ?_⟩
  · intro x hx
    rw [List.zip_map_right, List.mem_map] at hx
    obtain ⟨⟨a, b⟩, hab, rfl⟩ := hx
    have : a = b := by
      obtain ⟨i, hi⟩ := List.mem_iff_getElem?.1 hab
      rw [List.getElem?_zip_eq_some] at hi
      simpa using hi.1.symm.trans hi.2
    subst this
    exact (tagname_iff _ _).2 rfl
  · unfold recordsSimple
    rw [writeEach_ok _ simpleLine _ _ fun r _ => rfl]
    refine Gen.ext ?_ rfl
    dsimp only
    congr 1
    rw [List.zip_map_right, List.map_map]
    have : g.out.zip g.out = g.out.map fun r => (r, r) := by
      generalize g.out = l
      induction l with
      | nil => rfl
      | cons a l ih => simp [ih]
    rw [this, List.map_map]
    apply List.map_congr_left
    intro r _
    exact simpleLine_eq r

/-- C81: the listing determines numbers, levels and tags of the records. -/
theorem C81_listing_lossless (g g' : Gen Record) (h : (recordsSimple g).out = (recordsSimple g').out) :
    g.out.map (fun r => (r.seqno, r.level, r.tagid)) = g'.out.map (fun r => (r.seqno, r.level, r.tagid)) := by
  unfold recordsSimple at h
  rw [writeEach_ok _ simpleLine _ _ fun r _ => rfl, writeEach_ok _ simpleLine _ _ fun r _ => rfl] at h
  exact listing_inj _ _ h

example : (recordsSimple (selectRecords none none threeRecords)).out =
    lit "0000  HWPTAG_PARA_HEADER\n0001    HWPTAG_PARA_TEXT\n0002    HWPTAG1007\n" := by decide +kernel
example : TagName 3 (lit "HWPTAG-13") := (tagname_iff _ _).2 (by decide +kernel)
example : TagName 29 (lit "HWPTAG13") := (tagname_iff _ _).2 (by decide +kernel)

end Hwp.Props
