/-
Events of the summary information.
-/
import Verif.Proofs.DocXml
import Verif.Proofs.Msoleprops
set_option linter.unusedSimpArgs false
set_option linter.unusedVariables false
namespace Hwp
open Spec

/-! ### Digits -/

theorem lower_upper_digit : ∀ d : Fin 16, lowerChar (Nat.digitChar d.val).toUpper.toNat = (Nat.digitChar d.val).toNat := by
  decide

theorem lower_digits (n : Nat) : (((Nat.toDigits 16 n).map Char.toUpper).map Char.toNat).map lowerChar =
    (Nat.toDigits 16 n).map Char.toNat := by
  induction n using Nat.strongRecOn with
  | _ n ih =>
    by_cases h : n < 16
    · rw [Nat.toDigits_of_lt_base h]
      simp [lower_upper_digit ⟨n, h⟩]
    · have e : Nat.toDigits 16 n = Nat.toDigits 16 (n / 16) ++ Nat.toDigits 16 (n % 16) := by
        rw [Nat.toDigits_append_toDigits (by omega) (by omega) (by omega)]
        congr 1; omega
      rw [e, Nat.toDigits_of_lt_base (show n % 16 < 16 by omega)]
      simp only [List.map_append, List.map_cons, List.map_nil, lower_upper_digit ⟨n % 16, by omega⟩, ih (n / 16) (by omega)]

theorem hexLower_eq (w n : Nat) : hexLower w n = lowerHex w n := by
  unfold hexLower lowerHex
  rw [hexPad_eq]
  unfold upperHex
  simp only [List.leftpad, List.map_append, List.map_replicate, List.length_map, lower_digits]
  rfl

theorem uuidStr_eq (b : List Nat) : uuidStr b = guidText b := by
  unfold uuidStr guidText
  simp only [hexLower_eq, List.flatMap_cons, List.flatMap_nil, List.append_nil, List.append_assoc]

/-! ### Sorting -/

theorem insertByOffset_order (p : PropObj) (qs : List PropObj) (hs : qs.Pairwise (fun p q => p.offset ≤ q.offset)) :
    InOffsetOrder (p :: qs) (insertByOffset p qs) := by
  induction qs with
  | nil => exact ⟨.refl _, by simp [insertByOffset], fun o => rfl⟩
  | cons q qs ih =>
    unfold insertByOffset
    split
    · rename_i h
      refine ⟨.refl _, ?_, fun o => rfl⟩
      rw [List.pairwise_cons] at hs ⊢
      refine ⟨?_, by rw [List.pairwise_cons]; exact hs⟩
      intro r hr
      rcases List.mem_cons.1 hr with rfl | hr
      · exact h
      · exact Nat.le_trans h (hs.1 r hr)
    · rename_i h
      rw [List.pairwise_cons] at hs
      obtain ⟨h1, h2, h3⟩ := ih hs.2
      refine ⟨(h1.cons q).trans (.swap _ _ _), ?_, ?_⟩
      · rw [List.pairwise_cons]
        refine ⟨?_, h2⟩
        intro r hr
        rcases List.mem_cons.1 (h1.mem_iff.1 hr) with rfl | hr
        · omega
        · exact hs.1 r hr
      · intro o
        rw [List.filter_cons, h3 o, List.filter_cons, List.filter_cons, List.filter_cons]
        by_cases hq : q.offset = o
        · have hp : p.offset ≠ o := by omega
          simp [hq, hp]
        · simp [hq]

theorem sortByOffset_order (ps : List PropObj) : InOffsetOrder ps (sortByOffset ps) := by
  induction ps with
  | nil => exact ⟨.refl _, .nil, fun o => rfl⟩
  | cons p ps ih =>
    obtain ⟨h1, h2, h3⟩ := ih
    obtain ⟨g1, g2, g3⟩ := insertByOffset_order p (sortByOffset ps) h2
    refine ⟨g1.trans (h1.cons p), g2, ?_⟩
    intro o
    show (insertByOffset p (sortByOffset ps)).filter _ = _
    rw [g3 o, List.filter_cons, h3 o, List.filter_cons]

/-! ### What is read -/

/-- Property 0 is a dictionary and others are not. -/
def PropsOk (ps : List Prop_) : Prop := ∀ p ∈ ps, p.1 = 0 ↔ ∃ es, p.2 = .dictionary es

theorem readVt_plain (code : Nat) (s : Bytes) (v : PropValue) (h : readVt code s = .ok v) : ∀ es, v ≠ .dictionary es := by
  unfold readVt at h
  simp only [bind, Except.bind, pure, Except.pure] at h
  intro es e
  subst e
  repeat' (split at h)
  all_goals cases h

theorem readProperty_plain (data : Bytes) (pos : Nat) (v : PropValue) (h : readProperty data pos = .ok v) :
    ∀ es, v ≠ .dictionary es := by
  unfold readProperty at h
  split at h
  · cases h
  · exact readVt_plain _ _ _ h

theorem readDictionary_dict (data : Bytes) (pos : Nat) (v : PropValue) (h : readDictionary data pos = .ok v) :
    ∃ es, v = .dictionary es := by
  unfold readDictionary at h
  simp only [bind, Except.bind, pure, Except.pure] at h
  split at h
  · cases h
  · cases h; exact ⟨_, rfl⟩

theorem readOptional_props (read : Nat → Except PyErr PropValue) (off : Nat) (od : Option PropDesc) (ps : List Prop_)
    (h : readOptional read off od = .ok ps) : ∀ p ∈ ps, ∃ d, od = some d ∧ p.1 = d.id ∧ read (off + d.offset) = .ok p.2 := by
  cases od with
  | none => cases h; simp
  | some d =>
    unfold readOptional at h
    simp only [bind, Except.bind, pure, Except.pure] at h
    split at h
    · cases h
    · rename_i v hv
      cases h
      intro p hp
      rw [List.mem_singleton] at hp
      subst hp
      exact ⟨d, rfl, rfl, hv⟩

theorem readOthers_props (data : Bytes) (off : Nat) (b : Bool) : ∀ (ds : List PropDesc) (ps : List Prop_),
    readOthers data off b ds = .ok ps → ∀ p ∈ ps, (∃ d ∈ ds, p.1 = d.id) ∧ ∀ es, p.2 ≠ .dictionary es := by
  intro ds
  induction ds with
  | nil => intro ps h; cases h; simp
  | cons d ds ih =>
    intro ps h
    unfold readOthers at h
    cases b
    · cases h
    simp only [bind, Except.bind, pure, Except.pure, if_true] at h
    split at h
    · cases h
    rename_i v hv
    split at h
    · cases h
    rename_i rest hr
    cases h
    intro p hp
    rcases List.mem_cons.1 hp with rfl | hp
    · exact ⟨⟨d, by simp, rfl⟩, readProperty_plain _ _ _ hv⟩
    · obtain ⟨⟨d', h1, h2⟩, h3⟩ := ih _ hr p hp
      exact ⟨⟨d', by simp [h1], h2⟩, h3⟩

theorem readPropertySet_props (data : Bytes) (off : Nat) (ps : List Prop_) (h : readPropertySet data off = .ok ps) : PropsOk ps := by
  unfold readPropertySet at h
  simp only [bind, Except.bind, pure, Except.pure, popDesc] at h
  split at h
  · cases h
  rename_i descs hd
  split at h
  · cases h
  rename_i cp hcp
  split at h
  · cases h
  rename_i dict hdict
  split at h
  · cases h
  rename_i others ho
  cases h
  intro p hp
  rw [List.mem_append, List.mem_append] at hp
  rcases hp with (hp | hp) | hp
  · obtain ⟨d, h1, h2, h3⟩ := readOptional_props _ _ _ _ hcp p hp
    have := List.find?_some h1
    simp only [decide_eq_true_eq] at this
    constructor
    · intro h; omega
    · rintro ⟨es, h⟩; exact absurd h (readProperty_plain _ _ _ h3 es)
  · obtain ⟨d, h1, h2, h3⟩ := readOptional_props _ _ _ _ hdict p hp
    have := List.find?_some h1
    simp only [decide_eq_true_eq] at this
    exact ⟨fun _ => readDictionary_dict _ _ _ h3, fun _ => by omega⟩
  · obtain ⟨⟨d, h1, h2⟩, h3⟩ := readOthers_props _ _ _ _ _ ho p hp
    rw [List.mem_filter] at h1
    simp only [ne_eq, decide_not, Bool.not_eq_eq_eq_not, Bool.not_true, decide_eq_false_iff_not] at h1
    constructor
    · intro h; rw [h2] at h; exact absurd h h1.2
    · rintro ⟨es, h⟩; exact absurd h (h3 es)

/-- Property 0 of each set is a dictionary and others are not. -/
def SetsOk (sets : List PropSetObj) : Prop := ∀ s ∈ sets, ∀ p ∈ s.properties, p.id = 0 ↔ ∃ es, p.value = .dictionary es

theorem readSetObj_ok (data : Bytes) (fmtid : List Nat) (off : Nat) (s : PropSetObj) (h : readSetObj data fmtid off = .ok s) :
    (∀ p ∈ s.properties, p.id = 0 ↔ ∃ es, p.value = .dictionary es) ∧
    ∃ ps, readPropertySet data off = .ok ps ∧ s.properties.map (fun p => (p.id, p.value)) = ps ∧ s.fmtid = fmtid ∧ s.offset = off := by
  unfold readSetObj at h
  simp only [bind, Except.bind, pure, Except.pure] at h
  split at h
  · cases h
  split at h
  · cases h
  rename_i ps hps
  cases h
  refine ⟨?_, ps, hps, ?_, rfl, rfl⟩
  · intro p hp
    obtain ⟨q, hq, rfl⟩ := List.mem_map.1 hp
    exact readPropertySet_props _ _ _ hps q hq
  · rw [List.map_map]
    exact List.map_id ps

theorem readSetObjs_ok (data : Bytes) : ∀ (l : List (List Nat × Nat)) (sets : List PropSetObj), readSetObjs data l = .ok sets →
    SetsOk sets ∧ readPropertySets data l = .ok (sets.map fun s => s.properties.map fun p => (p.id, p.value)) ∧
    sets.map (fun s => (s.fmtid, s.offset)) = l := by
  intro l
  induction l with
  | nil => intro sets h; cases h; exact ⟨by simp [SetsOk], rfl, rfl⟩
  | cons x l ih =>
    intro sets h
    obtain ⟨fmtid, off⟩ := x
    unfold readSetObjs at h
    simp only [bind, Except.bind, pure, Except.pure] at h
    split at h
    · cases h
    rename_i s hs
    split at h
    · cases h
    rename_i more hm
    cases h
    obtain ⟨h1, ps, h2, h3, h4, h5⟩ := readSetObj_ok _ _ _ _ hs
    obtain ⟨g1, g2, g3⟩ := ih _ hm
    refine ⟨?_, ?_, ?_⟩
    · intro t ht
      rcases List.mem_cons.1 ht with rfl | ht
      · exact h1
      · exact g1 t ht
    · unfold readPropertySets
      rw [h2, g2, ← h3]; rfl
    · rw [List.map_cons, g3, h4, h5]

theorem readStreamObj_ok (data : Bytes) (s : PropStreamObj) (h : readStreamObj data = .ok s) :
    SetsOk s.sets ∧ readPropertySetStream data = .ok (s.clsid, s.sets.map fun s => s.properties.map fun p => (p.id, p.value)) := by
  unfold readStreamObj at h
  simp only [bind, Except.bind, pure, Except.pure] at h
  split at h
  · cases h
  split at h
  · cases h
  split at h
  · cases h
  split at h
  · cases h
  rename_i v hv
  split at h
  · cases h
  rename_i sets hsets
  cases h
  obtain ⟨h1, h2, h3⟩ := readSetObjs_ok _ _ _ hsets
  refine ⟨h1, ?_⟩
  unfold readPropertySetStream
  rw [hv]
  simp only [bind, Except.bind, pure, Except.pure, h2]

/-! ### Values at their offsets -/

theorem dictSetDesc_nodup (d : PropDesc) (m : List PropDesc) (h : (m.map PropDesc.id).Nodup) :
    ((dictSetDesc d m).map PropDesc.id).Nodup := by
  induction m with
  | nil => simp [dictSetDesc]
  | cons e m ih =>
    rw [List.map_cons, List.nodup_cons] at h
    unfold dictSetDesc
    split
    · rename_i he
      rw [List.map_cons, List.nodup_cons, ← he]
      exact h
    · rename_i he
      rw [List.map_cons, List.nodup_cons]
      refine ⟨?_, ih h.2⟩
      intro hc
      obtain ⟨x, hx, hxe⟩ := List.mem_map.1 hc
      rcases mem_dictSet d x m hx with rfl | hx
      · exact he hxe.symm
      · exact h.1 (List.mem_map.2 ⟨x, hx, hxe⟩)

theorem descMap_nodup (descs : List PropDesc) : ((descMap descs).map PropDesc.id).Nodup := by
  have key : ∀ (descs m : List PropDesc), (m.map PropDesc.id).Nodup →
      ((descs.foldl (fun m d => dictSetDesc d m) m).map PropDesc.id).Nodup := by
    intro descs
    induction descs with
    | nil => intro m h; exact h
    | cons d descs ih => intro m h; exact ih _ (dictSetDesc_nodup d m h)
  exact key descs [] (by simp)

theorem find_of_mem (m : List PropDesc) (h : (m.map PropDesc.id).Nodup) (d : PropDesc) (hd : d ∈ m) :
    m.find? (fun e => e.id = d.id) = some d := by
  induction m with
  | nil => cases hd
  | cons e m ih =>
    rw [List.map_cons, List.nodup_cons] at h
    rcases List.mem_cons.1 hd with rfl | hd
    · simp
    · have : e.id ≠ d.id := fun c => h.1 (List.mem_map.2 ⟨d, hd, c.symm⟩)
      rw [List.find?_cons_of_neg (by simpa using this)]
      exact ih h.2 hd

theorem readOthers_at (data : Bytes) (off : Nat) (b : Bool) : ∀ (ds : List PropDesc) (ps : List Prop_),
    readOthers data off b ds = .ok ps → ∀ p ∈ ps, ∃ d ∈ ds, p.1 = d.id ∧ readProperty data (off + d.offset) = .ok p.2 := by
  intro ds
  induction ds with
  | nil => intro ps h; cases h; simp
  | cons d ds ih =>
    intro ps h
    unfold readOthers at h
    cases b
    · cases h
    simp only [bind, Except.bind, pure, Except.pure, if_true] at h
    split at h
    · cases h
    rename_i v hv
    split at h
    · cases h
    rename_i rest hr
    cases h
    intro p hp
    rcases List.mem_cons.1 hp with rfl | hp
    · exact ⟨d, by simp, rfl, hv⟩
    · obtain ⟨d', h1, h2⟩ := ih _ hr p hp
      exact ⟨d', by simp [h1], h2⟩

theorem readPropertySet_at (data : Bytes) (off : Nat) (ps : List Prop_) (descs : List PropDesc) (r : Bytes)
    (hd : readPropSetHeader (data.drop off) = .ok (descs, r)) (h : readPropertySet data off = .ok ps) :
    ∀ p ∈ ps, ∃ d, (descMap descs).find? (fun d => d.id = p.1) = some d ∧
      (if p.1 = 0 then readDictionary data (off + d.offset) else readProperty data (off + d.offset)) = .ok p.2 := by
  have hn := descMap_nodup descs
  unfold readPropertySet at h
  rw [hd] at h
  simp only [bind, Except.bind, pure, Except.pure, popDesc] at h
  split at h
  · cases h
  rename_i cp hcp
  split at h
  · cases h
  rename_i dict hdict
  split at h
  · cases h
  rename_i others ho
  cases h
  intro p hp
  rw [List.mem_append, List.mem_append] at hp
  rcases hp with (hp | hp) | hp
  · obtain ⟨d, h1, h2, h3⟩ := readOptional_props _ _ _ _ hcp p hp
    have := List.find?_some h1
    simp only [decide_eq_true_eq] at this
    refine ⟨d, ?_, ?_⟩
    · rw [h2]; exact find_of_mem _ hn d (List.mem_of_find?_eq_some h1)
    · rw [if_neg (by omega)]; exact h3
  · obtain ⟨d, h1, h2, h3⟩ := readOptional_props _ _ _ _ hdict p hp
    have := List.find?_some h1
    simp only [decide_eq_true_eq] at this
    refine ⟨d, ?_, ?_⟩
    · rw [h2]; exact find_of_mem _ hn d (List.mem_filter.1 (List.mem_of_find?_eq_some h1)).1
    · rw [if_pos (by omega)]; exact h3
  · obtain ⟨d, h1, h2, h3⟩ := readOthers_at _ _ _ _ _ ho p hp
    have h1' := List.mem_filter.1 h1
    simp only [ne_eq, decide_not, Bool.not_eq_eq_eq_not, Bool.not_true, decide_eq_false_iff_not] at h1'
    refine ⟨d, ?_, ?_⟩
    · rw [h2]; exact find_of_mem _ hn d (List.mem_filter.1 h1'.1).1
    · rw [if_neg (by rw [h2]; exact h1'.2)]; exact h3

theorem readSetObjs_mem (data : Bytes) : ∀ (l : List (List Nat × Nat)) (sets : List PropSetObj), readSetObjs data l = .ok sets →
    ∀ t ∈ sets, readSetObj data t.fmtid t.offset = .ok t := by
  intro l
  induction l with
  | nil => intro sets h; cases h; simp
  | cons x l ih =>
    intro sets h
    obtain ⟨fmtid, off⟩ := x
    unfold readSetObjs at h
    simp only [bind, Except.bind, pure, Except.pure] at h
    split at h
    · cases h
    rename_i s hs
    split at h
    · cases h
    rename_i more hm
    cases h
    intro t ht
    rcases List.mem_cons.1 ht with rfl | ht
    · obtain ⟨-, ps, -, -, h4, h5⟩ := readSetObj_ok _ _ _ _ hs
      rw [h4, h5]; exact hs
    · exact ih _ hm t ht

theorem readStreamObj_sets (data : Bytes) (s : PropStreamObj) (h : readStreamObj data = .ok s) :
    ∀ t ∈ s.sets, readSetObj data t.fmtid t.offset = .ok t := by
  unfold readStreamObj at h
  simp only [bind, Except.bind, pure, Except.pure] at h
  repeat' (split at h)
  all_goals cases h
  rename_i sets hsets
  exact readSetObjs_mem _ _ _ hsets

theorem readSetObj_at (data : Bytes) (fmtid : List Nat) (off : Nat) (t : PropSetObj) (h : readSetObj data fmtid off = .ok t) :
    ∀ p ∈ t.properties, p.label = propLabel fmtid p.id ∧
      (if p.id = 0 then readDictionary data (off + p.offset) else readProperty data (off + p.offset)) = .ok p.value := by
  unfold readSetObj at h
  simp only [bind, Except.bind, pure, Except.pure] at h
  split at h
  · cases h
  rename_i v hv
  obtain ⟨descs, r⟩ := v
  split at h
  · cases h
  rename_i ps hps
  cases h
  intro p hp
  obtain ⟨q, hq, rfl⟩ := List.mem_map.1 hp
  obtain ⟨d, h1, h2⟩ := readPropertySet_at _ _ _ _ _ hv hps q hq
  refine ⟨rfl, ?_⟩
  simp only [h1, Option.map_some, Option.getD_some]
  exact h2

/-! ### Failures -/

theorem readSetObj_eq (data : Bytes) (fmtid : List Nat) (off : Nat) :
    (readSetObj data fmtid off).map (fun s => s.properties.map fun p => (p.id, p.value)) = readPropertySet data off := by
  unfold readSetObj
  simp only [bind, Except.bind, pure, Except.pure]
  cases hh : readPropSetHeader (data.drop off) with
  | error e =>
    unfold readPropertySet
    rw [hh]; rfl
  | ok v =>
    cases hp : readPropertySet data off with
    | error e => rfl
    | ok ps => simp [Except.map, Function.comp_def]

theorem readSetObjs_eq (data : Bytes) (l : List (List Nat × Nat)) :
    (readSetObjs data l).map (fun sets => sets.map fun s => s.properties.map fun p => (p.id, p.value)) = readPropertySets data l := by
  induction l with
  | nil => rfl
  | cons x l ih =>
    obtain ⟨fmtid, off⟩ := x
    unfold readSetObjs readPropertySets
    rw [← ih, ← readSetObj_eq data fmtid off]
    simp only [bind, Except.bind, pure, Except.pure]
    cases readSetObj data fmtid off with
    | error e => rfl
    | ok s => cases readSetObjs data l <;> rfl

theorem readStreamObj_eq (data : Bytes) :
    (readStreamObj data).map (fun s => (s.clsid, s.sets.map fun t => t.properties.map fun p => (p.id, p.value))) =
      readPropertySetStream data := by
  unfold readStreamObj readPropertySetStream
  simp only [bind, Except.bind, pure, Except.pure]
  cases h1 : readU16 data with
  | error e => unfold readStreamHeader; rw [h1]; rfl
  | ok v1 =>
    cases h2 : readU16 v1.2 with
    | error e => unfold readStreamHeader; simp only [bind, Except.bind, h1, h2]; rfl
    | ok v2 =>
      cases h3 : readU32 v2.2 with
      | error e => unfold readStreamHeader; simp only [bind, Except.bind, h1, h2, h3]; rfl
      | ok v3 =>
        cases h4 : readStreamHeader data with
        | error e => simp only [h2, h3]; rfl
        | ok v4 =>
          simp only [h2, h3, ← readSetObjs_eq]
          cases readSetObjs data v4.1.2 <;> rfl

/-! ### Events -/

theorem wrap_ofList {α} (w : α) (es : List (Ev α)) : wrapModelevents w (.ofList es) = .ofList (element w es) := rfl

theorem wrap_done {α} (w : α) : wrapModelevents w .done = .ofList (element w []) := rfl

theorem chain_map {α β} (xs : List β) (g : β → Gen α) (f : β → List α) (h : ∀ x ∈ xs, g x = .ofList (f x)) :
    Gen.chain (xs.map g) = .ofList (xs.flatMap f) := by
  induction xs with
  | nil => rfl
  | cons x xs ih =>
    rw [List.map_cons, Gen.chain, h x (by simp), ih (fun y hy => h y (by simp [hy]))]
    rfl

theorem property_events (filetime : Nat → PyStr) (p : PropObj) (hp : p.id = 0 ↔ ∃ es, p.value = .dictionary es) :
    propertyEvents filetime p = .ofList (propertyElement filetime p) := by
  obtain ⟨id, offset, label, value⟩ := p
  have h3 : lit "0x" ++ hexLower 4 3 = lit "0x0003" := by decide +kernel
  have h4 : lit "0x" ++ hexLower 4 31 = lit "0x001f" := by decide +kernel
  have h5 : lit "0x" ++ hexLower 4 64 = lit "0x0040" := by decide +kernel
  unfold propertyEvents propertyElement
  dsimp only at hp ⊢
  cases label <;>
  cases value with
  | dictionary es =>
    have h0 : id = 0 := hp.2 ⟨es, rfl⟩
    rw [if_pos h0]
    dsimp only
    rw [chain_map es dictEntryEvents (fun e => element ⟨"DictionaryEntry", [("id", .leaf (.int e.1)), ("name", .leaf (.str e.2))], ⟨none, none⟩⟩ [])
      (fun e _ => rfl)]
    simp only [vtName, typeAttrs, valueAttrs, List.append_nil]
    rfl
  | i4 n =>
    have h0 : id ≠ 0 := fun h => by obtain ⟨es, h⟩ := hp.1 h; cases h
    rw [if_neg h0]
    simp only [vtName, typeAttrs, valueAttrs, propText, entryElements, strAttr, h3]
    rfl
  | lpwstr n =>
    have h0 : id ≠ 0 := fun h => by obtain ⟨es, h⟩ := hp.1 h; cases h
    rw [if_neg h0]
    simp only [vtName, typeAttrs, valueAttrs, propText, entryElements, strAttr, h4]
    rfl
  | filetime n =>
    have h0 : id ≠ 0 := fun h => by obtain ⟨es, h⟩ := hp.1 h; cases h
    rw [if_neg h0]
    simp only [vtName, typeAttrs, valueAttrs, propText, entryElements, strAttr, h5]
    rfl

theorem summary_events (filetime : Nat → PyStr) (s : PropStreamObj) (h : SetsOk s.sets) :
    summaryEvents filetime s = .ofList (summaryElement s (s.sets.flatMap fun t => setElement filetime t (sortByOffset t.properties))) := by
  unfold summaryEvents propertyStreamEvents
  rw [chain_map s.sets (propertySetEvents filetime) (fun t => setElement filetime t (sortByOffset t.properties))]
  · rw [wrap_ofList, wrap_ofList]
    simp only [uuidStr_eq, hexLower_eq, ← decimal_nat]
    rfl
  · intro t ht
    unfold propertySetEvents
    rw [chain_map _ (propertyEvents filetime) (propertyElement filetime)]
    · rw [wrap_ofList, uuidStr_eq]; rfl
    · intro p hp
      exact property_events filetime p (h t ht p ((sortByOffset_order t.properties).1.mem_iff.1 hp))

/-! ### They can be shown -/

theorem all_element {P : ModelItem → Prop} {m : ModelItem} {es : List (Ev ModelItem)} (h1 : P m) (h2 : ∀ a, .start a ∈ es → P a) :
    ∀ a, .start a ∈ element m es → P a := by
  intro a ha
  simp only [element, List.mem_cons, List.mem_append, Ev.start.injEq, reduceCtorEq, List.not_mem_nil, or_false] at ha
  rcases ha with rfl | ha
  · exact h1
  · exact h2 a ha

theorem all_flatMap {β} {P : ModelItem → Prop} {xs : List β} {f : β → List (Ev ModelItem)} (h : ∀ x ∈ xs, ∀ a, .start a ∈ f x → P a) :
    ∀ a, .start a ∈ xs.flatMap f → P a := by
  intro a ha
  obtain ⟨x, hx, ha⟩ := List.mem_flatMap.1 ha
  exact h x hx a ha

theorem entry_good (env : XmlEnv) (e : Nat × PyStr) :
    IdShows env ⟨"DictionaryEntry", [("id", .leaf (.int e.1)), ("name", .leaf (.str e.2))], ⟨none, none⟩⟩ :=
  plain_good env _ _ _ rfl rfl (by decide) (by decide +kernel) (by simp [plainText]) ["id", "name"] rfl
    (by decide +kernel) (by decide +kernel) (by decide)

theorem property_good (env : XmlEnv) (filetime : Nat → PyStr) (p : PropObj) :
    ∀ a, .start a ∈ propertyElement filetime p → IdShows env a := by
  obtain ⟨id, offset, label, value⟩ := p
  refine all_element ?_ ?_
  · have hp : ∀ q ∈ ([("id", .leaf (.int id)), ("offset", .leaf (.int offset))] ++
        labelAttrs label ++ typeAttrs value ++ valueAttrs filetime value : Fields), (plainText q.2).isSome = true := by
      cases label <;> cases value <;> simp [plainText, labelAttrs, typeAttrs, valueAttrs]
    have key : ∀ names, names ∈ [["id", "offset", "type", "type_code", "value"], ["id", "offset"],
        ["id", "offset", "id_label", "type", "type_code", "value"], ["id", "offset", "id_label"]] →
        ((names.map lit).map hyphen).Nodup ∧ (∀ p ∈ names, ValidName (hyphen (lit p))) ∧ "<text>" ∉ names := by
      decide +kernel
    have fin : ∀ names, names ∈ [["id", "offset", "type", "type_code", "value"], ["id", "offset"],
        ["id", "offset", "id_label", "type", "type_code", "value"], ["id", "offset", "id_label"]] →
        ([("id", .leaf (.int id)), ("offset", .leaf (.int offset))] ++
        labelAttrs label ++ typeAttrs value ++ valueAttrs filetime value : Fields).map (·.1) = names →
        IdShows env ⟨"Property", [("id", .leaf (.int id)), ("offset", .leaf (.int offset))] ++
        labelAttrs label ++ typeAttrs value ++ valueAttrs filetime value, ⟨none, none⟩⟩ := by
      intro names hn he
      obtain ⟨h1, h2, h3⟩ := key names hn
      exact plain_good env _ _ _ rfl rfl (by decide) (by decide +kernel) hp names he h1 h2 h3
    cases label with
    | none =>
      cases value with
      | dictionary es => exact fin ["id", "offset"] (by simp) rfl
      | i4 n => exact fin ["id", "offset", "type", "type_code", "value"] (by simp) rfl
      | lpwstr n => exact fin ["id", "offset", "type", "type_code", "value"] (by simp) rfl
      | filetime n => exact fin ["id", "offset", "type", "type_code", "value"] (by simp) rfl
    | some l =>
      cases value with
      | dictionary es => exact fin ["id", "offset", "id_label"] (by simp) rfl
      | i4 n => exact fin ["id", "offset", "id_label", "type", "type_code", "value"] (by simp) rfl
      | lpwstr n => exact fin ["id", "offset", "id_label", "type", "type_code", "value"] (by simp) rfl
      | filetime n => exact fin ["id", "offset", "id_label", "type", "type_code", "value"] (by simp) rfl
  · cases value <;> try (intro a ha; cases ha)
    exact all_flatMap (fun e _ => all_element (entry_good env e) (fun a ha => by cases ha))

theorem summary_good (env : XmlEnv) (filetime : Nat → PyStr) (s : PropStreamObj) (sorted : PropSetObj → List PropObj) :
    ∀ a, .start a ∈ summaryElement s (s.sets.flatMap fun t => setElement filetime t (sorted t)) → IdShows env a := by
  refine all_element ?_ (all_element ?_ (all_flatMap fun t _ => all_element ?_ (all_flatMap fun p _ => property_good env filetime p)))
  · exact plain_good env _ _ _ rfl rfl (by decide) (by decide +kernel) (by simp) [] rfl
      (by decide +kernel) (by decide +kernel) (by decide)
  · exact plain_good env _ _ _ rfl rfl (by decide) (by decide +kernel) (by simp [plainText]) ["byte_order", "version", "system_identifier", "clsid"] rfl
      (by decide +kernel) (by decide +kernel) (by decide)
  · exact plain_good env _ _ _ rfl rfl (by decide) (by decide +kernel) (by simp [plainText]) ["fmtid", "offset"] rfl
      (by decide +kernel) (by decide +kernel) (by decide)

end Hwp
