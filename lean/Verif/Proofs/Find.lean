/-
Lemmas on `hwp5proc find`.
-/
import Verif.Spec.Find
import Verif.Props.Commands
import Verif.Proofs.ModelParse
set_option linter.unusedSimpArgs false
set_option linter.unusedVariables false
set_option autoImplicit false
namespace Hwp
open Spec Props

theorem tag_lookup_of_mem {l : List (Nat × String)} {t : Nat} {n : String} (h : (t, n) ∈ l) : ∃ m, l.lookup t = some m := by
  cases hl : l.lookup t with
  | some m => exact ⟨m, rfl⟩
  | none => exact absurd h (lookup_none l t hl n)

/-- With a known tag the tag option is understood. -/
theorem tagArg_ok (args : FindArgs) (h : TagKnown args) :
    ∃ tag, tagArg args.tag = .ok tag ∧ ∀ m : PModel Fields,
      tagCond tag m = true ↔ ∀ s, args.tag = some s → s ≠ [] → TagMeant s m.record.tagid := by
  obtain ⟨mo, tag, inc⟩ := args
  dsimp only
  match tag with
  | none => exact ⟨none, rfl, fun m => ⟨fun _ s hs => (by cases hs), fun _ => rfl⟩⟩
  | some [] => exact ⟨none, rfl, fun m => ⟨fun _ s hs hne => (by cases hs; exact absurd rfl hne), fun _ => rfl⟩⟩
  | some (c :: s) =>
    cases hi : pyInt (c :: s) with
    | none =>
      refine ⟨some (c :: s), by unfold tagArg; dsimp only; rw [hi], fun m => ?_⟩
      have hno : ∀ n, ¬ IntText (c :: s) n := fun n hn => by
        rw [(C81_integers _ _).2 hn] at hi; cases hi
      unfold tagCond
      dsimp only
      rw [beq_iff_eq]
      constructor
      · intro he x hx _
        cases hx
        exact .inr ⟨hno, (tagname_iff _ _).2 he.symm⟩
      · intro hx
        rcases hx _ rfl (by simp) with hx | hx
        · exact absurd hx (hno _)
        · exact ((tagname_iff _ _).1 hx.2).symm
    | some n =>
      have hint := (C81_integers _ _).1 hi
      obtain ⟨t, name, rfl, hmem⟩ := h _ n rfl (by simp) hint
      have hname := (tagname_iff _ _).1 (TagName.known t name hmem)
      rw [sourceTagnames_eq] at hmem
      obtain ⟨name', hl⟩ := tag_lookup_of_mem hmem
      have hl' : tagname t = lit name' := by unfold tagname; rw [hl]
      refine ⟨some (lit name'), ?_, fun m => ?_⟩
      · unfold tagArg
        dsimp only
        rw [hi]
        dsimp only
        rw [if_pos (Int.natCast_nonneg t), Int.toNat_natCast, hl]
      · unfold tagCond
        dsimp only
        rw [beq_iff_eq, ← hl']
        constructor
        · intro he x hx _
          cases hx
          have : m.record.tagid = t :=
            C81_tag_names_differ _ _ _ ((tagname_iff _ _).2 rfl) ((tagname_iff _ _).2 he)
          rw [this]
          exact .inl hint
        · intro hx
          rcases hx _ rfl (by simp) with hx | hx
          · rw [(C81_integers _ _).2 hx] at hi
            injection hi with hi
            rw [Int.ofNat_inj.1 hi]
          · exact absurd hint (hx.1 _)

theorem modelCond_iff (arg : Option PyStr) (m : PModel Fields) :
    modelCond arg m = true ↔ ∀ s, arg = some s → s ≠ [] → s = lit m.type := by
  match arg with
  | none => exact ⟨fun _ s h => (by cases h), fun _ => rfl⟩
  | some [] => exact ⟨fun _ s h hne => (by cases h; exact absurd rfl hne), fun _ => rfl⟩
  | some (c :: s) =>
    unfold modelCond
    dsimp only
    rw [beq_iff_eq]
    exact ⟨fun he x hx _ => (by cases hx; exact he), fun hx => hx _ rfl (by simp)⟩

theorem incompleteCond_iff (arg : Bool) (m : PModel Fields) :
    incompleteCond arg m = true ↔ (arg = true → ∃ u, m.unparsed = some u) := by
  unfold incompleteCond
  cases arg <;> simp [Option.isSome_iff_exists]

/-- The conditions are understood. -/
theorem findCond_ok (args : FindArgs) (h : TagKnown args) :
    ∃ tag, tagArg args.tag = .ok tag ∧ ∀ m : PModel Fields,
      (modelCond args.model m && tagCond tag m && incompleteCond args.incomplete m) = true ↔ Wanted args m := by
  obtain ⟨tag, h1, h2⟩ := tagArg_ok args h
  refine ⟨tag, h1, fun m => ?_⟩
  rw [Bool.and_eq_true, Bool.and_eq_true, modelCond_iff, h2, incompleteCond_iff]
  exact ⟨fun ⟨⟨a, b⟩, c⟩ => ⟨a, b, c⟩, fun ⟨a, b, c⟩ => ⟨⟨a, b⟩, c⟩⟩

theorem foundLine_of (file stream : PyStr) (m : PModel Fields) : LineOf file stream m (foundLine ⟨file, stream, m⟩) := by
  refine ⟨tagname m.record.tagid, (tagname_iff _ _).2 rfl, ?_⟩
  unfold foundLine
  rw [← decimal_nat, show lit " " = [0x20] by decide, show lit "\n" = [0x0a] by decide]

theorem found_lines_of (args : FindArgs) (cond : PModel Fields → Bool) (hc : ∀ m, cond m = true ↔ Wanted args m) (file stream : PyStr)
    (ms : List (PModel Fields)) :
    FoundLines args file stream ms ((ms.filter cond).map fun m => foundLine ⟨file, stream, m⟩) := by
  induction ms with
  | nil => exact .nil
  | cons m ms ih =>
    rw [List.filter_cons]
    by_cases h : cond m = true
    · rw [if_pos h, List.map_cons]
      exact .found m ms _ _ ((hc m).1 h) (foundLine_of _ _ _) ih
    · rw [if_neg h]
      exact .other m ms _ (fun hw => h ((hc m).2 hw)) ih

/-- The models of the sections, if all can be read. -/
theorem sectionModels_ok (rd : ModelReader Fields) (sections : List (PyStr × Bytes)) (h : ∀ p ∈ sections, (streamModels rd p.2).err = none) :
    sectionModels rd (sections.map fun p => (p.1, .ok p.2)) =
      .ofList (sections.flatMap fun p => (streamModels rd p.2).out.map fun m => (lit "BodyText/" ++ p.1, m)) := by
  induction sections with
  | nil => rfl
  | cons p sections ih =>
    rw [List.map_cons, sectionModels]
    rw [h p (List.mem_cons_self ..), ih (fun q hq => h q (List.mem_cons_of_mem _ hq))]
    rfl

theorem fileModels_ok (rd : Version → ModelReader Fields) (f : FindFile) (ver : Version) (streams : List (PyStr × Bytes))
    (hs : Streams f ver streams) (h : ∀ p ∈ streams, (streamModels (rd ver) p.2).err = none) :
    fileModels rd f = .ofList (streams.flatMap fun p => (streamModels (rd ver) p.2).out.map fun m => ⟨f.name, p.1, m⟩) := by
  obtain ⟨docinfo, sections, h1, h2, h3, rfl⟩ := hs
  unfold fileModels
  rw [h1]
  dsimp only
  unfold flatModels
  rw [h2]
  dsimp only
  rw [h _ (List.mem_cons_self ..), h3]
  dsimp only
  rw [sectionModels_ok]
  · show Gen.mk _ _ = Gen.mk _ _
    congr 1
    simp only [Gen.prepend, Gen.ofList, List.map_append, List.map_map, List.flatMap_cons, List.map_flatMap, List.flatMap_map]
    rfl
  · intro p hp
    exact h (lit "BodyText/" ++ p.1, p.2) (List.mem_cons_of_mem _ (List.mem_map.2 ⟨p, hp, rfl⟩))

/-- The lines for the streams. -/
theorem stream_lines (args : FindArgs) (cond : PModel Fields → Bool) (hc : ∀ m, cond m = true ↔ Wanted args m) (rd : ModelReader Fields)
    (file : PyStr) (streams : List (PyStr × Bytes)) :
    StreamLines args rd file streams (((streams.flatMap fun p => (streamModels rd p.2).out.map fun m => FoundModel.mk file p.1 m).filter
      fun m => cond m.model).map foundLine) := by
  induction streams with
  | nil => exact .nil
  | cons p streams ih =>
    rw [List.flatMap_cons, List.filter_append, List.map_append]
    refine .cons p.1 p.2 _ _ _ ?_ ih
    have := found_lines_of args cond hc file p.1 (streamModels rd p.2).out
    rw [List.filter_map, List.map_map]
    exact this

/-- The sections up to one that cannot be read to its end. -/
theorem sectionModels_upto (rd : ModelReader Fields) (pre : List (PyStr × Bytes)) (p : PyStr × Bytes) (post : List (PyStr × Bytes)) (e : PyErr)
    (h : ∀ q ∈ pre, (streamModels rd q.2).err = none) (he : (streamModels rd p.2).err = some e) :
    sectionModels rd ((pre ++ p :: post).map fun q => (q.1, .ok q.2)) =
      ⟨(pre ++ [p]).flatMap fun q => (streamModels rd q.2).out.map fun m => (lit "BodyText/" ++ q.1, m), some e⟩ := by
  induction pre with
  | nil =>
    rw [List.nil_append, List.map_cons, sectionModels]
    rw [he]
    simp
  | cons q pre ih =>
    rw [List.cons_append, List.map_cons, sectionModels]
    rw [h q (List.mem_cons_self ..), ih (fun q hq => h q (List.mem_cons_of_mem _ hq))]
    rfl

/-- The streams up to one that cannot be read to its end. -/
theorem fileModels_upto (rd : Version → ModelReader Fields) (f : FindFile) (ver : Version) (pre : List (PyStr × Bytes)) (p : PyStr × Bytes)
    (post : List (PyStr × Bytes)) (e : PyErr) (hs : Streams f ver (pre ++ p :: post))
    (h : ∀ q ∈ pre, (streamModels (rd ver) q.2).err = none) (he : (streamModels (rd ver) p.2).err = some e) :
    fileModels rd f = ⟨(pre ++ [p]).flatMap fun q => (streamModels (rd ver) q.2).out.map fun m => ⟨f.name, q.1, m⟩, some e⟩ := by
  obtain ⟨docinfo, sections, h1, h2, h3, hs⟩ := hs
  unfold fileModels
  rw [h1]
  dsimp only
  unfold flatModels
  rw [h2]
  dsimp only
  cases pre with
  | nil =>
    rw [List.nil_append] at hs
    injection hs with hp _
    subst hp
    dsimp only at he
    rw [he]
    simp
  | cons q pre =>
    rw [List.cons_append] at hs
    injection hs with hq hs
    subst hq
    have h0 := h _ (List.mem_cons_self ..)
    dsimp only at h0
    rw [h0, h3]
    dsimp only
    obtain ⟨pre', sec', rfl, hpre, hsec⟩ := List.map_eq_append_iff.1 hs.symm
    obtain ⟨p', post', rfl, rfl, hpost⟩ := List.map_eq_cons_iff.1 hsec
    subst hpre
    rw [sectionModels_upto (rd ver) pre' p' post' e (fun q hq => h (lit "BodyText/" ++ q.1, q.2)
      (List.mem_cons_of_mem _ (List.mem_map.2 ⟨q, hq, rfl⟩))) he]
    show Gen.mk _ _ = Gen.mk _ _
    congr 1
    simp only [Gen.prepend, List.map_append, List.map_map, List.flatMap_cons, List.flatMap_append, List.map_flatMap, List.flatMap_map,
      List.cons_append, List.flatMap_nil, List.append_nil]
    rfl

/-- Everything found belongs to a stream of the file. -/
theorem sectionModels_mem (rd : ModelReader Fields) (sections : List (PyStr × Except PyErr Bytes)) (x : PyStr × PModel Fields)
    (h : x ∈ (sectionModels rd sections).out) :
    ∃ name s, (name, .ok s) ∈ sections ∧ x.1 = lit "BodyText/" ++ name ∧ x.2 ∈ (streamModels rd s).out := by
  induction sections with
  | nil => cases h
  | cons p sections ih =>
    obtain ⟨name, o⟩ := p
    cases o with
    | error e => cases h
    | ok s =>
      rw [sectionModels] at h
      have key : x ∈ (streamModels rd s).out.map (fun m => (lit "BodyText/" ++ name, m)) →
          ∃ name' s', (name', .ok s') ∈ (name, Except.ok s) :: sections ∧ x.1 = lit "BodyText/" ++ name' ∧ x.2 ∈ (streamModels rd s').out := by
        intro h
        obtain ⟨m, hm, rfl⟩ := List.mem_map.1 h
        exact ⟨name, s, List.mem_cons_self .., rfl, hm⟩
      split at h
      · exact key h
      · rcases List.mem_append.1 h with h | h
        · exact key h
        · obtain ⟨n', s', h1, h2⟩ := ih h
          exact ⟨n', s', List.mem_cons_of_mem _ h1, h2⟩

theorem flatModels_mem (rd : ModelReader Fields) (f : FindFile) (x : PyStr × PModel Fields) (h : x ∈ (flatModels rd f).out) :
    ∃ s, x.2 ∈ (streamModels rd s).out ∧ ((f.docinfo = .ok s ∧ x.1 = lit "DocInfo") ∨
      ∃ sections name, f.bodytext = .ok sections ∧ (name, .ok s) ∈ sections ∧ x.1 = lit "BodyText/" ++ name) := by
  unfold flatModels at h
  split at h
  · cases h
  · next s hs =>
    dsimp only at h
    have key : x ∈ (streamModels rd s).out.map (fun m => (lit "DocInfo", m)) →
        ∃ s, x.2 ∈ (streamModels rd s).out ∧ ((f.docinfo = .ok s ∧ x.1 = lit "DocInfo") ∨
      ∃ sections name, f.bodytext = .ok sections ∧ (name, .ok s) ∈ sections ∧ x.1 = lit "BodyText/" ++ name) := by
      intro h
      obtain ⟨m, hm, rfl⟩ := List.mem_map.1 h
      exact ⟨s, hm, .inl ⟨hs, rfl⟩⟩
    split at h
    · exact key h
    · rcases List.mem_append.1 h with h | h
      · exact key h
      · split at h
        · cases h
        · next sections hb =>
          obtain ⟨n, s', h1, h2, h3⟩ := sectionModels_mem _ _ _ h
          exact ⟨s', h3, .inr ⟨sections, n, hb, h1, h2⟩⟩

theorem findLoop_mem (rd : Version → ModelReader Fields) (cond : PModel Fields → Bool) (files : List FindFile) (line : PyStr)
    (h : line ∈ (findLoop rd cond files).out) :
    ∃ f ∈ files, ∃ m ∈ (fileModels rd f).out, cond m.model = true ∧ line = foundLine m := by
  induction files with
  | nil => cases h
  | cons f fs ih =>
    rw [findLoop] at h
    have key : line ∈ ((fileModels rd f).out.filter fun m => cond m.model).map foundLine →
        ∃ g ∈ f :: fs, ∃ m ∈ (fileModels rd g).out, cond m.model = true ∧ line = foundLine m := by
      intro h
      obtain ⟨m, hm, rfl⟩ := List.mem_map.1 h
      obtain ⟨hm, hc⟩ := List.mem_filter.1 hm
      exact ⟨f, List.mem_cons_self .., m, hm, hc, rfl⟩
    have key2 : line ∈ (findLoop rd cond fs).out → ∃ g ∈ f :: fs, ∃ m ∈ (fileModels rd g).out, cond m.model = true ∧ line = foundLine m :=
      fun h => by
        obtain ⟨g, hg, h⟩ := ih h
        exact ⟨g, List.mem_cons_of_mem _ hg, h⟩
    split at h
    · exact (List.mem_append.1 h).elim key key2
    · exact (List.mem_append.1 h).elim key key2
    · exact key h

/-! ### Types -/

theorem lookup_type_name {κ : Type} [BEq κ] [LawfulBEq κ] {l : List (κ × String)} {k : κ} {t : String} (h : l.lookup k = some t) :
    t ∈ l.map (·.2) := by
  induction l with
  | nil => cases h
  | cons p l ih =>
    obtain ⟨k', t'⟩ := p
    rw [List.lookup_cons] at h
    split at h
    · injection h with h
      subst h
      exact List.mem_cons_self ..
    · exact List.mem_cons_of_mem _ (ih h)

theorem baseType_name (t : Nat) : baseType t ∈ modelNames := by
  unfold baseType modelNames
  cases h : tagModels.lookup t with
  | none => simp
  | some n =>
    have := lookup_type_name h
    simp only [Option.getD_some, List.mem_append]
    exact .inl (.inl (.inl (.inl this)))

theorem resolveModel_name {κ} {rd : ModelReader κ} {parent : PFrame κ} {r : Record} {t : String} {c : κ} {s : Bytes}
    (h : resolveModel rd parent r = .ok (t, c, s)) : t ∈ modelNames := by
  obtain ⟨c0, s0, -, h2⟩ := resolveModel_ok h
  rcases h2 with ⟨-, rfl, -, -⟩ | ⟨h2, -⟩
  · exact baseType_name _
  · unfold extensionOf at h2
    unfold modelNames
    simp only [List.mem_append]
    split at h2
    · cases hc : rd.chid c0 with
      | error e => rw [hc] at h2; cases h2
      | ok chid =>
        rw [hc] at h2
        injection h2 with h2
        exact .inl (.inl (.inl (.inr (lookup_type_name h2))))
    · split at h2
      · split at h2
        · cases h2
        · injection h2 with h2
          exact .inl (.inl (.inr (lookup_type_name h2)))
      · split at h2
        · split at h2
          · cases h2
          · injection h2 with h2
            exact .inl (.inr (lookup_type_name h2))
        · cases h2

theorem parseModelsGo_names {κ} (rd : ModelReader κ) (err : Option PyErr) (rs : List Record) :
    ∀ (base : Option Int) (st : List (PFrame κ)), ∀ m ∈ (parseModelsGo rd err base st rs).out, m.type ∈ modelNames := by
  induction rs with
  | nil => intro base st m hm; simp [parseModelsGo] at hm
  | cons r rs ih =>
    intro base st m hm
    rw [parseModelsGo] at hm
    split at hm
    · cases hm
    · split at hm
      · cases hm
      · split at hm
        · split at hm
          · cases hm
          · split at hm
            · cases hm
            · next h =>
              rcases List.mem_cons.1 hm with rfl | hm
              · exact resolveModel_name h
              · exact ih _ _ m hm
        · cases hm

theorem streamModels_names {κ} (rd : ModelReader κ) (s : Bytes) : ∀ m ∈ (streamModels rd s).out, m.type ∈ modelNames := by
  unfold streamModels
  dsimp only
  generalize (groupByTop (readRecords s)).err = err
  induction (groupByTop (readRecords s)).out with
  | nil => intro m hm; simp [chainModels] at hm
  | cons g gs ih =>
    intro m hm
    rw [chainModels] at hm
    have hp := parseModelsGo_names rd (Gen.ofList g).err (Gen.ofList g).out none [⟨none, false⟩]
    split at hm
    · next out h =>
      unfold parseModels at h
      rw [h] at hp
      exact (List.mem_append.1 hm).elim (hp m) (ih m)
    · next out e h =>
      unfold parseModels at h
      rw [h] at hp
      exact hp m hm

theorem names_no_space : ∀ t ∈ modelNames, 0x20 ∉ lit t := by decide +kernel

end Hwp
