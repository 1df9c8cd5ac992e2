/- Lemmas about file header and layers. -/
import Verif.Spec.Filestructure
import Verif.Proofs.Bytes
import Mathlib.Data.List.Nodup
set_option linter.unusedSimpArgs false
namespace Hwp
open Spec

theorem readBYTES_nil (n : Nat) : readBYTES n [] = .error .eof := by
  simp [readBYTES, readn, bioRead, bind, Except.bind]

theorem readBYTES_ne (n : Nat) (hn : 0 < n) (s : Bytes) (h : s ≠ []) :
    readBYTES n s = .ok (.bytes (s.take n), s.drop n) := by
  have : (s.take n).length ≠ 0 := by
    have : 0 < s.length := List.length_pos_iff.2 h
    rw [List.length_take]; omega
  unfold readBYTES readn bioRead
  simp only [this, if_false]
  rfl

theorem readVERSION_eq (s : Bytes) : readVERSION s =
    (if 4 ≤ s.length then
      .ok (.version [(s.getD 3 0).toNat, (s.getD 2 0).toNat, (s.getD 1 0).toNat, (s.getD 0 0).toNat], s.drop 4)
    else if s.length = 0 then .error .eof else .error .indexError) := by
  match s with
  | [] => rfl
  | [_] => rfl
  | [_, _] => rfl
  | [_, _, _] => rfl
  | a :: b :: c :: d :: r => simp [readVERSION, readn, bioRead, versionDecode, bind, Except.bind, pure, Except.pure]

theorem readFlags32_eq (s : Bytes) : readFlags32 s =
    (if 4 ≤ s.length then .ok (.int (leNat (s.take 4)), s.drop 4)
    else if s.length = 0 then .error .eof else .error .structError) := by
  match s with
  | [] => rfl
  | [_] => rfl
  | [_, _] => rfl
  | [_, _, _] => rfl
  | a :: b :: c :: d :: r =>
    simp [readFlags32, readU, unpackU, readn, bioRead, bind, Except.bind, pure, Except.pure]

theorem readHeader_eq (s : Bytes) : readHeader s = header s := by
  unfold readHeader readType typeEvents compileType fileHeaderTy
  by_cases h0 : s = []
  · subst h0; rfl
  have e1 := readBYTES_ne 32 (by omega) s h0
  have e2 := readVERSION_eq (s.drop 32)
  have e3 := readFlags32_eq ((s.drop 32).drop 4)
  by_cases h1 : s.length < 36
  · have : ¬ 4 ≤ (s.drop 32).length := by simp; omega
    rw [if_neg this] at e2
    have e2' : ∃ e, readVERSION (s.drop 32) = .error e := by
      split at e2
      · exact ⟨_, e2⟩
      · exact ⟨_, e2⟩
    obtain ⟨e, e2⟩ := e2'
    unfold header
    rw [if_neg (by omega), if_neg (by omega)]
    simp [mapTy, mapMembers, prun, pstep, TEv.item, TKind.isArray, initValue, readLeaf, e1, e2, collect]
  rw [if_pos (by simp; omega)] at e2
  by_cases h2 : s.length < 40
  · have : ¬ 4 ≤ ((s.drop 32).drop 4).length := by simp; omega
    rw [if_neg this] at e3
    have e3' : ∃ e, readFlags32 ((s.drop 32).drop 4) = .error e := by
      split at e3
      · exact ⟨_, e3⟩
      · exact ⟨_, e3⟩
    obtain ⟨e, e3⟩ := e3'
    unfold header
    rw [if_neg (by omega), if_pos (by omega)]
    rw [List.drop_drop] at e3
    simp [mapTy, mapMembers, prun, pstep, TEv.item, TKind.isArray, initValue, readLeaf, e1, e2, e3, collect]
  rw [if_pos (by simp; omega)] at e3
  rw [List.drop_drop] at e2 e3
  rw [List.drop_drop] at e3
  by_cases h3 : s.length = 40
  · have e4 : readBYTES 216 (s.drop (32 + 4 + 4)) = .error .eof := by
      rw [List.drop_of_length_le (by omega)]; rfl
    unfold header
    rw [if_neg (by omega), if_neg (by omega)]
    simp [mapTy, mapMembers, prun, pstep, TEv.item, TKind.isArray, initValue, readLeaf, e1, e2, e3, e4, collect]
  · have hne : s.drop (32 + 4 + 4) ≠ [] := by
      intro h
      have := congrArg List.length h
      simp at this; omega
    have e4 := readBYTES_ne 216 (by omega) _ hne
    unfold header
    rw [if_pos (by omega)]
    simp [mapTy, mapMembers, prun, pstep, TEv.item, TKind.isArray, initValue, readLeaf, e1, e2, e3, e4, collect,
      setField, headerOf, finishValue, List.lookup]

theorem bit_iff (f b : Nat) : (bitGroup b b f ≠ 0) = (f.testBit b = true) := by
  unfold bitGroup Nat.testBit
  have : b + 1 - b = 1 := by omega
  rw [this]
  rw [Nat.and_comm 1]
  simp

theorem password_eq (h : Header) : h.password = h.flags.testBit 1 := by
  have := bit_iff h.flags 1
  unfold Header.password
  simp only [this, Bool.decide_eq_true]

theorem distributable_eq (h : Header) : h.distributable = h.flags.testBit 2 := by
  have := bit_iff h.flags 2
  unfold Header.distributable
  simp only [this, Bool.decide_eq_true]

theorem compressed_eq (h : Header) : h.compressed = h.flags.testBit 0 := by
  have := bit_iff h.flags 0
  unfold Header.compressed
  simp only [this, Bool.decide_eq_true]

theorem decompress_eq (inflate : Bytes → Option Bytes) (d : Bytes) :
    decompress inflate d = (inflate d).getD d := by
  unfold decompress
  cases inflate d <;> rfl

/-- A document that was opened. -/
theorem hwp5File_ok (c : Codec) (es : StgEntries) (f : Obj) (hf : hwp5File c es = .ok f) :
    ∃ d h, es.lookup (ustr "FileHeader") = some (.stream d) ∧ header d = .ok h ∧
      h.signature = hwp5Signature ∧
      f = .hwpFile (layers h (.fileBase (.raw (.storage es)))) h := by
  unfold hwp5File hwp5FileBase storageIsHwp5file headerOfBase at hf
  cases hl : es.lookup (ustr "FileHeader") with
  | none => simp [hl, bind, Except.bind] at hf
  | some i =>
    cases i with
    | storage e => simp [hl, bind, Except.bind] at hf
    | stream d =>
      cases hh : readHeader d with
      | error e => simp [hl, hh, bind, Except.bind] at hf
      | ok h =>
        by_cases hs : h.signature = hwp5Signature
        · refine ⟨d, h, rfl, by rw [← readHeader_eq, hh], hs, ?_⟩
          simp [hl, hh, hs, bind, Except.bind, pure, Except.pure, Obj.getitem, Obj.withOpen, Obj.isStream,
            Obj.openRead] at hf
          exact hf.symm
        · simp [hl, hh, hs, bind, Except.bind, pure, Except.pure] at hf

/-- The converse. -/
theorem hwp5File_of (c : Codec) (es : StgEntries) (d : Bytes) (h : Header)
    (hl : es.lookup (ustr "FileHeader") = some (.stream d)) (hh : header d = .ok h)
    (hs : h.signature = hwp5Signature) :
    hwp5File c es = .ok (.hwpFile (layers h (.fileBase (.raw (.storage es)))) h) := by
  rw [← readHeader_eq] at hh
  unfold hwp5File hwp5FileBase storageIsHwp5file headerOfBase
  simp [hl, hh, hs, bind, Except.bind, pure, Except.pure, Obj.getitem, Obj.withOpen, Obj.isStream, Obj.openRead]

theorem inner_eq (c : Codec) (es sub : StgEntries) (h : Header) (top n : PyStr) (stored : Bytes)
    (ht : es.lookup top = some (.storage sub)) (hn : sub.lookup n = some (.stream stored))
    (hs : top ∉ topStreams) :
    (do
      let a ← (Obj.hwpFile (layers h (.fileBase (.raw (.storage es)))) h).getitem top
      let b ← a.getitem n
      b.openRead c) = innerStream c h.flags top stored := by
  simp only [topStreams, List.mem_cons, List.not_mem_nil, or_false, not_or] at hs
  obtain ⟨t1, t2, t3, t4⟩ := hs
  unfold innerStream layers
  rw [password_eq, distributable_eq, compressed_eq]
  cases b1 : h.flags.testBit 1 <;> cases b2 : h.flags.testBit 2 <;> cases b0 : h.flags.testBit 0 <;>
  by_cases n1 : top = ustr "BinData" <;> by_cases n2 : top = ustr "BodyText" <;>
  by_cases n3 : top = ustr "ViewText" <;> by_cases n4 : top = ustr "Scripts" <;>
  simp only [n1, n2, n3, n4] at t1 t2 t3 t4 ht ⊢ <;>
  first
  | (exfalso; revert n2; simp only [n1]; decide)
  | (exfalso; revert n3; simp only [n1]; decide)
  | (exfalso; revert n4; simp only [n1]; decide)
  | (exfalso; revert n3; simp only [n2]; decide)
  | (exfalso; revert n4; simp only [n2]; decide)
  | (exfalso; revert n4; simp only [n3]; decide)
  | (simp (decide := true) [ht, hn, n1, n2, n3, n4, t1, t2, t3, t4, Obj.getitem, Obj.convertFile, Obj.convertCompression, Obj.convertDist,
      Obj.convertPassword, Obj.isStream, Obj.openRead, Obj.withOpen, bind, Except.bind, pure, Except.pure,
      encryptedStorages, compressedStorages, decompress_eq] <;>
      try (cases distDecode c.aes stored <;> rfl))

theorem top_eq (c : Codec) (es : StgEntries) (h : Header) (name : PyStr) (stored : Bytes)
    (ht : es.lookup name = some (.stream stored)) :
    (do
      let a ← (Obj.hwpFile (layers h (.fileBase (.raw (.storage es)))) h).getitem name
      a.openRead c) = .ok (topStream c h.flags name stored) := by
  unfold topStream layers
  rw [password_eq, distributable_eq, compressed_eq]
  have hcase : name ∈ [ustr "BinData", ustr "BodyText", ustr "ViewText", ustr "Scripts", ustr "DocInfo",
      ustr "PrvText", ustr "FileHeader", Obj.summaryName] ∨ name ∉ [ustr "BinData", ustr "BodyText", ustr "ViewText", ustr "Scripts", ustr "DocInfo",
      ustr "PrvText", ustr "FileHeader", Obj.summaryName] := by
    by_cases hh : name ∈ [ustr "BinData", ustr "BodyText", ustr "ViewText", ustr "Scripts", ustr "DocInfo",
      ustr "PrvText", ustr "FileHeader", Obj.summaryName]
    · exact .inl hh
    · exact .inr hh
  rcases hcase with hc | hc
  · simp only [List.mem_cons, List.not_mem_nil, or_false] at hc
    cases b1 : h.flags.testBit 1 <;> cases b2 : h.flags.testBit 2 <;> cases b0 : h.flags.testBit 0 <;>
    rcases hc with rfl | rfl | rfl | rfl | rfl | rfl | rfl | rfl <;>
    simp (decide := true) [ht, Obj.getitem, Obj.convertFile, Obj.convertCompression, Obj.convertDist,
      Obj.convertPassword, Obj.isStream, Obj.openRead, Obj.withOpen, bind, Except.bind, pure, Except.pure,
      decompress_eq]
  · simp only [List.mem_cons, List.not_mem_nil, or_false, not_or] at hc
    obtain ⟨n1, n2, n3, n4, n5, n6, n7, n8⟩ := hc
    cases b1 : h.flags.testBit 1 <;> cases b2 : h.flags.testBit 2 <;> cases b0 : h.flags.testBit 0 <;>
    simp [ht, n1, n2, n3, n4, n5, n6, n7, n8, Obj.getitem, Obj.convertFile, Obj.convertCompression, Obj.convertDist,
      Obj.convertPassword, Obj.isStream, Obj.openRead, Obj.withOpen, bind, Except.bind, pure, Except.pure]

/-! ### Decimal numbers -/

theorem digitValue_digit (d : Nat) (h : d < 10) : digitValue (0x30 + d) = some d := by
  unfold digitValue
  rw [if_pos (by omega)]
  congr 1; omega

theorem intDigits_decDigits (n : Nat) : ∀ (p : Bool) (rest : PyStr),
    intDigits 0 p (decDigits n ++ rest) = intDigits n true rest := by
  induction n using Nat.strongRecOn with
  | ind n ih =>
    intro p rest
    rw [decDigits]
    by_cases h : n < 10
    · rw [if_pos h]
      simp only [List.cons_append, List.nil_append]
      rw [intDigits, digitValue_digit n h]
      simp
    · rw [if_neg h, List.append_assoc, ih (n / 10) (by omega)]
      simp only [List.cons_append, List.nil_append]
      rw [intDigits, digitValue_digit _ (by omega)]
      dsimp only
      congr 1
      omega

theorem decDigits_mem (n : Nat) : ∀ c ∈ decDigits n, 0x30 ≤ c ∧ c ≤ 0x39 := by
  induction n using Nat.strongRecOn with
  | ind n ih =>
    intro c hc
    rw [decDigits] at hc
    by_cases h : n < 10
    · rw [if_pos h] at hc
      simp at hc; omega
    · rw [if_neg h] at hc
      simp only [List.mem_append, List.mem_singleton] at hc
      rcases hc with hc | hc
      · exact ih (n / 10) (by omega) c hc
      · omega

theorem decDigits_ne (n : Nat) : decDigits n ≠ [] := by
  rw [decDigits]
  split <;> simp

theorem intSigned_decimal (i : Int) : intSigned (decimal i) = some i := by
  have hd : ∀ n, intDigits 0 false (decDigits n) = some n := by
    intro n
    have := intDigits_decDigits n false []
    rw [List.append_nil] at this
    rw [this]
    rfl
  cases i with
  | negSucc n =>
    simp only [decimal, intSigned, hd, Option.map_some]
    rfl
  | ofNat n =>
    simp only [decimal]
    match hs : decDigits n, decDigits_ne n with
    | c :: cs, _ =>
      have hc := decDigits_mem n c (by rw [hs]; simp)
      rw [intSigned]
      · rw [← hs, hd]; rfl
      · intro x e; simp only [List.cons.injEq] at e; omega
      · intro x e; simp only [List.cons.injEq] at e; omega

theorem dropWhile_none {p : Nat → Bool} (s : PyStr) (h : ∀ c ∈ s, p c = false) : s.dropWhile p = s := by
  cases s with
  | nil => rfl
  | cons c cs => rw [List.dropWhile_cons, h c (by simp)]; simp

theorem decimal_plain (i : Int) : ∀ c ∈ decimal i, asciiSpace c = false := by
  intro c hc
  have : (0x30 ≤ c ∧ c ≤ 0x39) ∨ c = 0x2d := by
    cases i with
    | ofNat n => exact .inl (decDigits_mem n c hc)
    | negSucc n =>
      simp only [decimal, List.mem_cons] at hc
      rcases hc with hc | hc
      · exact .inr hc
      · exact .inl (decDigits_mem _ c hc)
  simp only [asciiSpace, decide_eq_false_iff_not]
  omega

theorem pyInt_decimal (i : Int) : pyInt (decimal i) = some i := by
  unfold pyInt
  rw [dropWhile_none _ (decimal_plain i), dropWhile_none _ (by simpa using decimal_plain i), List.reverse_reverse,
    intSigned_decimal]

/-! ### Sections -/

theorem afterPrefix_some (pre name rest : PyStr) : afterPrefix pre name = some rest ↔ name = pre ++ rest := by
  unfold afterPrefix
  by_cases h : pre.isPrefixOf name = true
  · rw [if_pos h]
    obtain ⟨t, rfl⟩ := List.isPrefixOf_iff_prefix.1 h
    simp
  · rw [if_neg h]
    constructor
    · intro h; simp at h
    · rintro rfl
      exact absurd (List.isPrefixOf_iff_prefix.2 ⟨rest, rfl⟩) h

theorem mapM_ok {α β : Type} (g : α → Except PyErr β) (l : List α) (h : ∀ a ∈ l, ∃ b, g a = .ok b) :
    ∃ bs, l.mapM g = .ok bs ∧ l.map g = bs.map .ok := by
  induction l with
  | nil => exact ⟨[], rfl, rfl⟩
  | cons a l ih =>
    obtain ⟨b, hb⟩ := h a (by simp)
    obtain ⟨bs, h1, h2⟩ := ih (fun x hx => h x (by simp [hx]))
    refine ⟨b :: bs, ?_, by simp [hb, h2]⟩
    rw [List.mapM_cons, hb, h1]
    rfl

theorem pairwise_lt {l : List Int} (h : l.Pairwise (· ≤ ·)) (hn : l.Nodup) : l.Pairwise (· < ·) := by
  induction l with
  | nil => exact .nil
  | cons a l ih =>
    rw [List.pairwise_cons] at h ⊢
    rw [List.nodup_cons] at hn
    refine ⟨?_, ih h.2 hn.2⟩
    intro b hb
    have := h.1 b hb
    have : a ≠ b := fun e => hn.1 (e ▸ hb)
    omega

theorem insertInt_perm (a : Int) (l : List Int) : (insertInt a l).Perm (a :: l) := by
  induction l with
  | nil => exact .refl _
  | cons b bs ih =>
    unfold insertInt
    split
    · exact .refl _
    · exact (List.Perm.cons b ih).trans (.swap a b bs)

theorem sortInts_perm (l : List Int) : (sortInts l).Perm l := by
  induction l with
  | nil => exact .refl _
  | cons a l ih => exact (insertInt_perm a _).trans (.cons a ih)

theorem insertInt_sorted (a : Int) (l : List Int) (h : l.Pairwise (· ≤ ·)) :
    (insertInt a l).Pairwise (· ≤ ·) := by
  induction l with
  | nil => simp [insertInt]
  | cons b bs ih =>
    rw [List.pairwise_cons] at h
    unfold insertInt
    split
    · rename_i hab
      rw [List.pairwise_cons, List.pairwise_cons]
      refine ⟨?_, h⟩
      intro x hx
      rcases List.mem_cons.1 hx with rfl | hx
      · exact hab
      · have := h.1 x hx; omega
    · rename_i hab
      rw [List.pairwise_cons]
      refine ⟨?_, ih h.2⟩
      intro x hx
      rcases List.mem_cons.1 ((insertInt_perm a bs).mem_iff.1 hx) with rfl | hx
      · omega
      · exact h.1 x hx

theorem sortInts_sorted (l : List Int) : (sortInts l).Pairwise (· ≤ ·) := by
  induction l with
  | nil => exact .nil
  | cons a l ih => exact insertInt_sorted a _ ih

theorem sectionIndexes_spec (toInt : PyStr → Option Int) (names : List PyStr) (hd : names.Nodup)
    (hc : ∀ i, toInt (decimal i) = some i)
    (hcanon : ∀ rest i, ustr "Section" ++ rest ∈ names → toInt rest = some i → rest = decimal i) :
    (sectionIndexes toInt names).Pairwise (· < ·) ∧
    ∀ i, i ∈ sectionIndexes toInt names ↔ ustr "Section" ++ decimal i ∈ names := by
  unfold sectionIndexes
  generalize hf : (fun name => (afterPrefix (ustr "Section") name).bind toInt) = f
  have hfs : ∀ n ∈ names, ∀ i, f n = some i → n = ustr "Section" ++ decimal i := by
    intro n hn i h
    rw [← hf] at h
    dsimp only at h
    cases ha : afterPrefix (ustr "Section") n with
    | none => simp [ha] at h
    | some rest =>
      simp only [ha, Option.bind_some] at h
      have e := (afterPrefix_some _ _ _).1 ha
      subst e
      rw [hcanon rest i hn h]
  have hfi : ∀ i, f (ustr "Section" ++ decimal i) = some i := by
    intro i
    rw [← hf]
    dsimp only
    rw [(afterPrefix_some _ _ _).2 rfl]
    exact hc i
  have hmem : ∀ i, i ∈ names.filterMap f ↔ ustr "Section" ++ decimal i ∈ names := by
    intro i
    rw [List.mem_filterMap]
    constructor
    · rintro ⟨n, hn, h⟩
      exact hfs n hn i h ▸ hn
    · intro h
      exact ⟨_, h, hfi i⟩
  have hnd : (names.filterMap f).Nodup := by
    clear hmem
    induction names with
    | nil => simp
    | cons n ns ih =>
      rw [List.nodup_cons] at hd
      rw [List.filterMap_cons]
      have ih' := ih hd.2 (fun rest i h => hcanon rest i (by simp [h])) (fun x hx => hfs x (by simp [hx]))
      cases hn : f n with
      | none => exact ih'
      | some i =>
        dsimp only
        rw [List.nodup_cons]
        refine ⟨?_, ih'⟩
        intro hi
        obtain ⟨m, hm, he⟩ := List.mem_filterMap.1 hi
        have e1 := hfs n (by simp) i hn
        have e2 := hfs m (by simp [hm]) i he
        exact hd.1 (by rw [e1, ← e2]; exact hm)
  have hp := sortInts_perm (names.filterMap f)
  refine ⟨pairwise_lt ?_ (hp.nodup_iff.2 hnd), ?_⟩
  · exact sortInts_sorted _
  · intro i
    rw [hp.mem_iff, hmem]

/-! ### Versions -/

theorem lt_singleton (a b : Nat) : Version.lt [a] [b] = decide (a < b) := by
  simp [Version.lt]

theorem version_lt_iff (a b : Bytes) (va vb : Version) (ha : a.length = 4) (hb : b.length = 4)
    (hva : versionDecode a = .ok va) (hvb : versionDecode b = .ok vb) :
    (Version.lt va vb = true ↔ leNat a < leNat b) ∧ (va = vb ↔ a = b) := by
  match a, ha, b, hb with
  | [a0, a1, a2, a3], _, [b0, b1, b2, b3], _ =>
    simp only [versionDecode, List.getElem?_cons_succ, List.getElem?_cons_zero, Except.ok.injEq] at hva hvb
    subst hva hvb
    have := a0.toNat_lt; have := a1.toNat_lt; have := a2.toNat_lt; have := a3.toNat_lt
    have := b0.toNat_lt; have := b1.toNat_lt; have := b2.toNat_lt; have := b3.toNat_lt
    constructor
    · simp only [Version.lt, leNat]
      generalize a0.toNat = x0 at *
      generalize a1.toNat = x1 at *
      generalize a2.toNat = x2 at *
      generalize a3.toNat = x3 at *
      generalize b0.toNat = y0 at *
      generalize b1.toNat = y1 at *
      generalize b2.toNat = y2 at *
      generalize b3.toNat = y3 at *
      split
      · simp; omega
      split
      · simp; omega
      split
      · simp; omega
      split
      · simp; omega
      split
      · simp; omega
      split
      · simp; omega
      split
      · simp; omega
      split
      · simp; omega
      simp; omega
    · simp only [List.cons.injEq, UInt8.toNat_inj, and_true]
      constructor
      · rintro ⟨h1, h2, h3, h4⟩; exact ⟨h4, h3, h2, h1⟩
      · rintro ⟨h1, h2, h3, h4⟩; exact ⟨h4, h3, h2, h1⟩

end Hwp
