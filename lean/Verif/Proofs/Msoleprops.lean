/- Lemmas about property sets. -/
import Verif.Spec.Msoleprops
import Verif.Proofs.Bytes
import Verif.Proofs.Utf16
import Verif.Proofs.Dataio
import Mathlib.Data.List.Nodup
set_option linter.unusedSimpArgs false
namespace Hwp
open Spec

/-! ### Reading encodings -/

theorem prim_read_encode (t : Prim) (v : Int) (h : InRange t v) (rest : Bytes) :
    t.read (encodeInt t v ++ rest) = .ok (v, rest) := by
  unfold Prim.read
  rw [readn_append (by simp [encodeInt, fmtInfo_eq]) (by rw [fmtInfo_eq]; exact width_pos t)]
  simp only [bind, Except.bind, pure, Except.pure]
  rw [unpack_encode t v h]

theorem readU32_append {v : Nat} {r : Bytes} (hv : v < 2 ^ 32) : readU32 (leBytes 4 v ++ r) = .ok (v, r) := by
  unfold readU32
  rw [readU_append (by simpa using hv) (by omega)]
  rfl

theorem readU16_append {v : Nat} {r : Bytes} (hv : v < 2 ^ 16) : readU16 (leBytes 2 v ++ r) = .ok (v, r) := by
  unfold readU16
  rw [readU_append (by simpa using hv) (by omega)]
  rfl

theorem readByte_cons {v : Nat} {r : Bytes} (hv : v < 256) : readByte (UInt8.ofNat v :: r) = .ok (v, r) := by
  have := readU_append (w := 1) (v := v) (r := r) (by simpa using hv) (by omega)
  have e : leBytes 1 v = [UInt8.ofNat v] := by
    simp [leBytes, Nat.mod_eq_of_lt hv]
  rw [e] at this
  unfold readByte
  rw [show (UInt8.ofNat v :: r) = [UInt8.ofNat v] ++ r from rfl, this]
  rfl

theorem readItems_flatMap {α : Type} (item : Bytes → Except PyErr (α × Bytes)) (enc : α → Bytes) (xs : List α) :
    (∀ x ∈ xs, ∀ r, item (enc x ++ r) = .ok (x, r)) → ∀ r,
    readItems item xs.length (xs.flatMap enc ++ r) = .ok (xs, r) := by
  induction xs with
  | nil => intro _ r; rfl
  | cons x xs ih =>
    intro h r
    rw [List.length_cons, readItems, List.flatMap_cons, List.append_assoc, h x (by simp)]
    simp only [bind, Except.bind]
    rw [ih (fun y hy => h y (by simp [hy]))]
    rfl

theorem readNArray_flatMap {α : Type} (item : Bytes → Except PyErr (α × Bytes)) (enc : α → Bytes) (xs : List α)
    (hl : xs.length < 2 ^ 32) (h : ∀ x ∈ xs, ∀ r, item (enc x ++ r) = .ok (x, r)) (r : Bytes) :
    readNArray item (leBytes 4 xs.length ++ (xs.flatMap enc ++ r)) = .ok (xs, r) := by
  unfold readNArray
  rw [readU32_append hl]
  simp only [bind, Except.bind]
  exact readItems_flatMap item enc xs h r

theorem readItems_bytes (bs : List Nat) (h : ∀ b ∈ bs, b < 256) (r : Bytes) :
    readItems readByte bs.length (bs.map UInt8.ofNat ++ r) = .ok (bs, r) := by
  have := readItems_flatMap readByte (fun b => [UInt8.ofNat b]) bs
    (fun b hb r => readByte_cons (h b hb)) r
  have e : bs.flatMap (fun b => [UInt8.ofNat b]) = bs.map UInt8.ofNat := by
    induction bs with
    | nil => rfl
    | cons b bs ih => rw [List.flatMap_cons, List.map_cons, ← ih (fun x hx => h x (by simp [hx])) ?_]; rfl
                      exact readItems_flatMap readByte (fun b => [UInt8.ofNat b]) bs
                        (fun b hb r => readByte_cons (h b (by simp [hb]))) r
  rw [e] at this
  exact this

theorem readDictEntry_enc (e : Nat × PyStr) (h1 : e.1 < 2 ^ 32) (h2 : e.2.length + 1 < 2 ^ 32)
    (h3 : ∀ c ∈ e.2, c < 256) (r : Bytes) : readDictEntry (encEntry e ++ r) = .ok (e, r) := by
  obtain ⟨id, name⟩ := e
  dsimp only at h1 h2 h3
  unfold readDictEntry encEntry
  simp only [List.append_assoc]
  rw [readU32_append h1]
  simp only [bind, Except.bind]
  unfold readNArray
  rw [readU32_append h2]
  simp only [bind, Except.bind]
  have := readItems_bytes (name ++ [0]) (by
    intro b hb
    simp only [List.mem_append, List.mem_singleton] at hb
    rcases hb with hb | rfl
    · exact h3 b hb
    · omega) r
  simp only [List.length_append, List.length_singleton, List.map_append, List.map_cons, List.map_nil,
    List.append_assoc] at this
  have e0 : (UInt8.ofNat 0 : UInt8) = 0 := rfl
  rw [e0] at this
  rw [this]
  simp [pure, Except.pure]

theorem readProperty_code (data : Bytes) (pos code : Nat) (hc : code < 2 ^ 16) (bs : Bytes)
    (h : Holds data pos (leBytes 4 code ++ bs)) :
    ∃ r, readProperty data pos = readVt code (bs ++ r) := by
  obtain ⟨r, hr⟩ := h
  refine ⟨r, ?_⟩
  unfold readProperty
  rw [← hr, List.append_assoc, readU_append (by simp; omega) (by omega)]
  dsimp only
  congr 1
  unfold bitGroup
  rw [Nat.shiftRight_zero, Nat.and_two_pow_sub_one_eq_mod, Nat.mod_eq_of_lt (by simp; omega)]

theorem readProperty_enc (data : Bytes) (pos : Nat) (v : PropValue) (hv : ValueOk v) (hd : ¬ IsDictionary v)
    (h : Holds data pos (encValue v)) : readProperty data pos = .ok v := by
  match v, hv, hd with
  | .i4 n, hv, _ =>
    obtain ⟨r, hr⟩ := readProperty_code data pos 3 (by omega) _ h
    rw [hr]
    unfold readVt
    rw [if_pos rfl, prim_read_encode .INT32 n hv r]
    rfl
  | .lpwstr s, hv, _ =>
    rw [encValue, List.append_assoc] at h
    obtain ⟨r, hr⟩ := readProperty_code data pos 0x1f (by omega) _ h
    rw [hr]
    unfold readVt
    rw [if_neg (by omega), if_pos rfl, List.append_assoc, readU32_append hv.2]
    simp only [bind, Except.bind]
    have hl : (encodeUtf16le (s ++ [0])).length = ((strUnits s).length + 1) * 2 := by
      rw [encodeUtf16le_append, List.length_append, encodeUtf16le_length]
      have : (encodeUtf16le [0]).length = 2 := by decide
      omega
    rw [List.take_append_of_le_length (by omega), List.take_of_length_le (by omega),
      utf16leDecode_encode]
    · simp [pure, Except.pure]
    · intro c hc
      simp only [List.mem_append, List.mem_singleton] at hc
      rcases hc with hc | rfl
      · exact hv.1 c hc
      · left; omega
  | .filetime n, hv, _ =>
    obtain ⟨r, hr⟩ := readProperty_code data pos 0x40 (by omega) _ h
    rw [hr]
    unfold readVt
    rw [if_neg (by omega), if_neg (by omega), if_pos rfl]
    have hn : n < 2 ^ 64 := hv
    have e : leBytes 8 n = leBytes 4 (n % 2 ^ 32) ++ leBytes 4 (n / 2 ^ 32) := by
      simp only [leBytes, List.cons_append, List.nil_append, List.cons.injEq, and_true]
      refine ⟨?_, ?_, ?_, ?_, ?_, ?_, ?_, ?_⟩ <;> (congr 1; omega)
    rw [e, List.append_assoc, readU32_append (by omega)]
    simp only [bind, Except.bind]
    rw [readU32_append (by omega)]
    simp only [pure, Except.pure]
    congr 2
    rw [Nat.shiftLeft_eq, Nat.mul_comm, ← Nat.two_pow_add_eq_or_of_lt (by omega)]
    omega
  | .dictionary es, _, hd => exact absurd trivial hd

theorem readDictionary_enc (data : Bytes) (pos : Nat) (es : List (Nat × PyStr)) (hv : ValueOk (.dictionary es))
    (h : Holds data pos (encValue (.dictionary es))) : readDictionary data pos = .ok (.dictionary es) := by
  obtain ⟨r, hr⟩ := h
  unfold readDictionary
  rw [← hr, encValue, List.append_assoc]
  rw [readNArray_flatMap readDictEntry encEntry es hv.1
    (fun e he r => readDictEntry_enc e (hv.2 e he).1 (hv.2 e he).2.1 (hv.2 e he).2.2 r)]
  rfl

theorem readPropSetHeader_enc (size : Nat) (hsz : size < 2 ^ 32) (descs : List PropDesc) (hl : descs.length < 2 ^ 32)
    (hd : ∀ d ∈ descs, d.id < 2 ^ 32 ∧ d.offset < 2 ^ 32) (r : Bytes) :
    readPropSetHeader (encPropSetHeader size descs ++ r) = .ok (descs, r) := by
  unfold readPropSetHeader encPropSetHeader
  simp only [List.append_assoc]
  rw [readU32_append hsz]
  simp only [bind, Except.bind]
  apply readNArray_flatMap _ _ _ hl
  intro d hdm r
  unfold readPropDesc
  rw [List.append_assoc, readU32_append (hd d hdm).1]
  simp only [bind, Except.bind]
  rw [readU32_append (hd d hdm).2]
  rfl

theorem readStreamHeader_enc (bo ver sys : Nat) (clsid : List Nat) (sets : List (List Nat × Nat))
    (h1 : bo < 2 ^ 16) (h2 : ver < 2 ^ 16) (h3 : sys < 2 ^ 32)
    (h4 : clsid.length = 16) (h5 : ∀ b ∈ clsid, b < 256) (h6 : sets.length < 2 ^ 32)
    (h7 : ∀ s ∈ sets, s.1.length = 16 ∧ (∀ b ∈ s.1, b < 256) ∧ s.2 < 2 ^ 32) (r : Bytes) :
    readStreamHeader (encStreamHeader bo ver sys clsid sets ++ r) = .ok ((clsid, sets), r) := by
  unfold readStreamHeader encStreamHeader
  simp only [List.append_assoc]
  rw [readU16_append h1]
  simp only [bind, Except.bind]
  rw [readU16_append h2]
  simp only [bind, Except.bind]
  rw [readU32_append h3]
  simp only [bind, Except.bind]
  rw [← h4, readItems_bytes clsid h5]
  simp only [bind, Except.bind]
  rw [readNArray_flatMap _ _ _ h6]
  · rfl
  · intro s hs r
    obtain ⟨a1, a2, a3⟩ := h7 s hs
    unfold readPropSetDesc
    rw [← a1, List.append_assoc, readItems_bytes s.1 a2]
    simp only [bind, Except.bind]
    rw [readU32_append a3]
    rfl

/-! ### The table of properties -/

theorem find_dictSet (d : PropDesc) (id : Nat) (m : List PropDesc) :
    (dictSetDesc d m).find? (fun e => e.id = id) =
      if d.id = id then some d else m.find? (fun e => e.id = id) := by
  induction m with
  | nil =>
    by_cases h : d.id = id <;> simp [dictSetDesc, h]
  | cons e es ih =>
    rw [dictSetDesc]
    by_cases he : e.id = d.id
    · rw [if_pos he]
      by_cases h : d.id = id
      · simp [h]
      · have : ¬ e.id = id := by omega
        simp [h, this]
    · rw [if_neg he]
      by_cases hh : e.id = id
      · have : ¬ d.id = id := by omega
        simp [hh, this]
      · rw [List.find?_cons_of_neg (by simpa using hh), ih, List.find?_cons_of_neg (by simpa using hh)]

theorem find_foldl (id : Nat) (descs : List PropDesc) : ∀ m : List PropDesc,
    (descs.foldl (fun m d => dictSetDesc d m) m).find? (fun e => e.id = id) =
      ((descs.reverse.find? (fun e => e.id = id)).or (m.find? (fun e => e.id = id))) := by
  induction descs with
  | nil => intro m; simp
  | cons d descs ih =>
    intro m
    rw [List.foldl_cons, ih, find_dictSet, List.reverse_cons, List.find?_append]
    by_cases h : d.id = id
    · cases descs.reverse.find? (fun e => e.id = id) <;> simp [h]
    · cases descs.reverse.find? (fun e => e.id = id) <;> simp [h]

/-- In the table the last description of an id counts. -/
theorem find_descMap (id : Nat) (descs : List PropDesc) :
    (descMap descs).find? (fun e => e.id = id) = descs.reverse.find? (fun e => e.id = id) := by
  unfold descMap
  rw [find_foldl]
  simp

theorem mem_dictSet (d e : PropDesc) (m : List PropDesc) (h : e ∈ dictSetDesc d m) : e = d ∨ e ∈ m := by
  induction m with
  | nil => simp [dictSetDesc] at h; exact .inl h
  | cons x xs ih =>
    rw [dictSetDesc] at h
    split at h
    · rcases List.mem_cons.1 h with h | h
      · exact .inl h
      · exact .inr (by simp [h])
    · rcases List.mem_cons.1 h with h | h
      · exact .inr (by simp [h])
      · rcases ih h with h | h
        · exact .inl h
        · exact .inr (by simp [h])

theorem mem_descMap (descs : List PropDesc) (e : PropDesc) (h : e ∈ descMap descs) : e ∈ descs := by
  have key : ∀ (descs m : List PropDesc), e ∈ descs.foldl (fun m d => dictSetDesc d m) m → e ∈ descs ∨ e ∈ m := by
    intro descs
    induction descs with
    | nil => intro m h; exact .inr h
    | cons d ds ih =>
      intro m h
      rw [List.foldl_cons] at h
      rcases ih _ h with h | h
      · exact .inl (by simp [h])
      · rcases mem_dictSet d e m h with h | h
        · exact .inl (by simp [h])
        · exact .inr h
  rcases key descs [] h with h | h
  · exact h
  · simp at h

theorem find_filter (k id : Nat) (m : List PropDesc) :
    (m.filter (fun d => d.id ≠ k)).find? (fun e => e.id = id) =
      if id = k then none else m.find? (fun e => e.id = id) := by
  induction m with
  | nil => simp
  | cons e es ih =>
    by_cases h : e.id = k
    · rw [List.filter_cons_of_neg (by simpa using h), ih]
      by_cases hk : id = k
      · simp [hk]
      · have : ¬ e.id = id := by omega
        simp [hk, this]
    · rw [List.filter_cons_of_pos (by simpa using h)]
      by_cases hi : e.id = id
      · have : ¬ id = k := by omega
        simp [hi, this]
      · rw [List.find?_cons_of_neg (by simpa using hi), ih, List.find?_cons_of_neg (by simpa using hi)]

theorem readOthers_find (data : Bytes) (off : Nat) (b : Bool) (m : List PropDesc) :
    ∀ ps, readOthers data off b m = .ok ps → ∀ id,
    match m.find? (fun e => e.id = id) with
    | none => ps.find? (fun p => p.1 = id) = none
    | some d => ∃ v, ps.find? (fun p => p.1 = id) = some (id, v) ∧ readProperty data (off + d.offset) = .ok v := by
  induction m with
  | nil => intro ps h id; simp [readOthers] at h; subst h; simp
  | cons e es ih =>
    intro ps h id
    rw [readOthers] at h
    cases b with
    | false => simp at h
    | true =>
      simp only [if_true, bind, Except.bind] at h
      cases hv : readProperty data (off + e.offset) with
      | error x => simp [hv] at h
      | ok v =>
        simp only [hv] at h
        cases hr : readOthers data off true es with
        | error x => simp [hr] at h
        | ok rest =>
          simp only [hr, pure, Except.pure, Except.ok.injEq] at h
          subst h
          by_cases hi : e.id = id
          · simp [hi]
            exact hv
          · rw [List.find?_cons_of_neg (by simpa using hi), List.find?_cons_of_neg (by simpa using hi)]
            exact ih rest hr id

theorem readOthers_ok (data : Bytes) (off : Nat) (m : List PropDesc)
    (h : ∀ d ∈ m, ∃ v, readProperty data (off + d.offset) = .ok v) :
    ∃ ps, readOthers data off true m = .ok ps := by
  induction m with
  | nil => exact ⟨[], rfl⟩
  | cons e es ih =>
    obtain ⟨v, hv⟩ := h e (by simp)
    obtain ⟨ps, hp⟩ := ih (fun d hd => h d (by simp [hd]))
    refine ⟨(e.id, v) :: ps, ?_⟩
    rw [readOthers]
    simp only [if_true, bind, Except.bind, hv, hp]
    rfl

/-- The result of reading an optional property. -/
def optionalIs (read : Nat → Except PyErr PropValue) (off : Nat) : Option PropDesc → List Prop_ → Prop
  | none, ps => ps = []
  | some d, ps => ∃ v, ps = [(d.id, v)] ∧ read (off + d.offset) = .ok v

theorem readOptional_ok (read : Nat → Except PyErr PropValue) (off : Nat) (d : Option PropDesc) (ps : List Prop_)
    (h : readOptional read off d = .ok ps) :
    optionalIs read off d ps := by
  cases d with
  | none => simpa [readOptional, optionalIs, eq_comm] using h
  | some d =>
    unfold readOptional at h
    cases hv : read (off + d.offset) with
    | error e => simp [hv, bind, Except.bind] at h
    | ok v =>
      simp only [hv, bind, Except.bind, pure, Except.pure, Except.ok.injEq] at h
      exact ⟨v, h.symm, hv⟩

theorem find_id {m : List PropDesc} {id : Nat} {d : PropDesc} (h : m.find? (fun e => e.id = id) = some d) : d.id = id := by
  have := List.find?_some h
  simpa using this

/-- How a value with the id is read. -/
def readById (data : Bytes) (id pos : Nat) : Except PyErr PropValue :=
  if id = 0 then readDictionary data pos else readProperty data pos

theorem readPropertySet_get (data : Bytes) (off : Nat) (props : List Prop_)
    (h : readPropertySet data off = .ok props) :
    ∃ descs r, readPropSetHeader (data.drop off) = .ok (descs, r) ∧ ∀ id,
      match descs.reverse.find? (fun e => e.id = id) with
      | none => propGet props id = .error .keyError
      | some d => ∃ v, propGet props id = .ok v ∧ readById data id (off + d.offset) = .ok v := by
  unfold readPropertySet at h
  cases hh : readPropSetHeader (data.drop off) with
  | error e => simp [hh, bind, Except.bind] at h
  | ok p =>
    obtain ⟨descs, r⟩ := p
    refine ⟨descs, r, rfl, ?_⟩
    simp only [hh, bind, Except.bind, popDesc] at h
    cases hc : readOptional (readProperty data) off ((descMap descs).find? (fun d => d.id = 1)) with
    | error e => simp [hc] at h
    | ok cp =>
      simp only [hc] at h
      have e0 := find_filter 1 0 (descMap descs)
      rw [if_neg (by omega)] at e0
      rw [e0] at h
      cases hd : readOptional (readDictionary data) off ((descMap descs).find? (fun d => d.id = 0)) with
      | error e => simp [hd] at h
      | ok dict =>
        simp only [hd] at h
        generalize hm : ((descMap descs).filter (fun d => d.id ≠ 1)).filter (fun d => d.id ≠ 0) = m at h
        cases ho : readOthers data off ((descMap descs).find? (fun d => d.id = 0)).isSome m with
        | error e => simp [ho] at h
        | ok others =>
          simp only [ho, pure, Except.pure, Except.ok.injEq] at h
          subst h
          intro id
          rw [← find_descMap]
          have hoth := readOthers_find data off _ m others ho id
          have hmf : m.find? (fun e => e.id = id) = if id = 0 then none else if id = 1 then none
              else (descMap descs).find? (fun e => e.id = id) := by
            rw [← hm, find_filter, find_filter]
          rw [hmf] at hoth
          have hcp := readOptional_ok _ _ _ _ hc
          have hdi := readOptional_ok _ _ _ _ hd
          unfold propGet readById
          rw [List.find?_append, List.find?_append]
          by_cases i1 : id = 1
          · subst i1
            simp only [if_neg (show ¬ (1 : Nat) = 0 by omega), if_true] at hoth ⊢
            cases hf : (descMap descs).find? (fun d => d.id = 1) with
            | none =>
              rw [hf] at hcp
              simp only [optionalIs] at hcp ⊢
              subst hcp
              have : dict.find? (fun p => p.1 = 1) = none := by
                cases hf0 : (descMap descs).find? (fun d => d.id = 0) with
                | none => rw [hf0] at hdi; simp only [optionalIs] at hdi; subst hdi; rfl
                | some d =>
                  rw [hf0] at hdi
                  obtain ⟨v, hv, _⟩ := hdi
                  subst hv
                  simp [find_id hf0]
              rw [this, hoth]
              rfl
            | some d =>
              rw [hf] at hcp
              obtain ⟨v, hv, hr⟩ := hcp
              subst hv
              refine ⟨v, ?_, hr⟩
              simp [find_id hf]
          · have hcpn : cp.find? (fun p => p.1 = id) = none := by
              cases hf1 : (descMap descs).find? (fun d => d.id = 1) with
              | none => rw [hf1] at hcp; simp only [optionalIs] at hcp; subst hcp; rfl
              | some d =>
                rw [hf1] at hcp
                obtain ⟨v, hv, _⟩ := hcp
                subst hv
                have := find_id hf1
                have : ¬ d.id = id := by omega
                simp [this]
            rw [hcpn]
            by_cases i0 : id = 0
            · subst i0
              simp only [if_true] at hoth ⊢
              cases hf : (descMap descs).find? (fun d => d.id = 0) with
              | none =>
                rw [hf] at hdi
                simp only [optionalIs] at hdi ⊢
                subst hdi
                rw [hoth]
                rfl
              | some d =>
                rw [hf] at hdi
                obtain ⟨v, hv, hr⟩ := hdi
                subst hv
                refine ⟨v, ?_, hr⟩
                simp [find_id hf]
            · have hdn : dict.find? (fun p => p.1 = id) = none := by
                cases hf0 : (descMap descs).find? (fun d => d.id = 0) with
                | none => rw [hf0] at hdi; simp only [optionalIs] at hdi; subst hdi; rfl
                | some d =>
                  rw [hf0] at hdi
                  obtain ⟨v, hv, _⟩ := hdi
                  subst hv
                  have := find_id hf0
                  have : ¬ d.id = id := by omega
                  simp [this]
              rw [hdn]
              rw [if_neg i0, if_neg i1] at hoth
              simp only [if_neg i0]
              cases hf : (descMap descs).find? (fun d => d.id = id) with
              | none => rw [hf] at hoth; dsimp only at hoth ⊢; rw [hoth]; rfl
              | some d =>
                rw [hf] at hoth
                obtain ⟨v, hv, hr⟩ := hoth
                refine ⟨v, ?_, hr⟩
                rw [hv]; rfl

/-- If the table has a dictionary and every value can be read, so can the set. -/
theorem readPropertySet_ok (data : Bytes) (off : Nat) (descs : List PropDesc) (r : Bytes)
    (hh : readPropSetHeader (data.drop off) = .ok (descs, r))
    (h0 : ∃ d ∈ descs, d.id = 0)
    (hv : ∀ d ∈ descs, ∃ v, readById data d.id (off + d.offset) = .ok v) :
    ∃ props, readPropertySet data off = .ok props := by
  have hv' : ∀ d ∈ descMap descs, ∃ v, readById data d.id (off + d.offset) = .ok v :=
    fun d hd => hv d (mem_descMap descs d hd)
  unfold readPropertySet
  simp only [hh, bind, Except.bind, popDesc]
  have e0 := find_filter 1 0 (descMap descs)
  rw [if_neg (by omega)] at e0
  rw [e0]
  have hs : ∃ d0, (descMap descs).find? (fun d => d.id = 0) = some d0 := by
    obtain ⟨d, hd, hd0⟩ := h0
    rw [find_descMap]
    cases hf : descs.reverse.find? (fun e => e.id = 0) with
    | some d => exact ⟨d, rfl⟩
    | none =>
      rw [List.find?_eq_none] at hf
      exact absurd (by simpa using hd0) (hf d (by simpa using hd))
  obtain ⟨d0, hd0⟩ := hs
  have hc : ∃ cp, readOptional (readProperty data) off ((descMap descs).find? (fun d => d.id = 1)) = .ok cp := by
    cases hf : (descMap descs).find? (fun d => d.id = 1) with
    | none => exact ⟨[], rfl⟩
    | some d =>
      obtain ⟨v, hvv⟩ := hv' d (List.mem_of_find?_eq_some hf)
      unfold readById at hvv
      rw [if_neg (by rw [find_id hf]; omega)] at hvv
      exact ⟨[(d.id, v)], by simp [readOptional, hvv, bind, Except.bind, pure, Except.pure]⟩
  obtain ⟨cp, hcp⟩ := hc
  have hdi : ∃ di, readOptional (readDictionary data) off (some d0) = .ok di := by
    obtain ⟨v, hvv⟩ := hv' d0 (List.mem_of_find?_eq_some hd0)
    unfold readById at hvv
    rw [if_pos (find_id hd0)] at hvv
    exact ⟨[(d0.id, v)], by simp [readOptional, hvv, bind, Except.bind, pure, Except.pure]⟩
  obtain ⟨di, hdi⟩ := hdi
  have ho := readOthers_ok data off
    (((descMap descs).filter (fun d => d.id ≠ 1)).filter (fun d => d.id ≠ 0)) (by
      intro d hd
      simp only [List.mem_filter] at hd
      obtain ⟨v, hvv⟩ := hv' d hd.1.1
      unfold readById at hvv
      rw [if_neg (by simpa using hd.2)] at hvv
      exact ⟨v, hvv⟩)
  obtain ⟨ot, hot⟩ := ho
  rw [hcp, hd0]
  simp only
  rw [hdi]
  simp only [Option.isSome_some]
  rw [hot]
  exact ⟨_, rfl⟩

/-- With distinct ids the last description of an id is the only one. -/
theorem find_reverse_nodup (descs : List PropDesc) (hn : (descs.map PropDesc.id).Nodup) (d : PropDesc) (hd : d ∈ descs) :
    descs.reverse.find? (fun e => e.id = d.id) = some d := by
  cases hf : descs.reverse.find? (fun e => e.id = d.id) with
  | none =>
    rw [List.find?_eq_none] at hf
    exact absurd (by simp) (hf d (by simpa using hd))
  | some e =>
    have he : e ∈ descs := by simpa using List.mem_of_find?_eq_some hf
    have hid := find_id hf
    rw [List.inj_on_of_nodup_map hn he hd hid]

end Hwp
