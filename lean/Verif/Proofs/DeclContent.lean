/- Proofs about the contents of parsed models and the exceptions of parsing. -/
import Verif.Proofs.DeclReader
set_option linter.unusedSimpArgs false
set_option linter.unusedVariables false
namespace Hwp
open Spec

/-! ### Contents of parsed models -/

theorem reads_ne {κ} {read : String → Bytes → Except PyErr (κ × Bytes)} {update : κ → κ → κ} {cs : List String}
    {s r : Bytes} {v : κ} (h : Reads read update cs s v r) : cs ≠ [] := by
  induction h with
  | one _ => simp
  | snoc _ _ _ => simp

theorem reads_one {κ} {read : String → Bytes → Except PyErr (κ × Bytes)} {update : κ → κ → κ} {c : String}
    {s r : Bytes} {v : κ} (h : Reads read update [c] s v r) : read c s = .ok (v, r) := by
  generalize hcs : [c] = cs at h
  cases h with
  | one h1 => simp at hcs; subst hcs; exact h1
  | @snoc cs c s v w r r' h1 h2 =>
    exact absurd hcs (by have := reads_ne h1; cases cs <;> simp_all)

/-- The content of a parsed model. -/
theorem model_parts {ver : Version} {rs : Gen Record} {i : Nat} {m : PModel Fields}
    (hm : (parseModels (directReader ver) rs).out[i]? = some m) :
    m.type ∈ modelNames ∧
    (m.type ≠ "BinData" ∨ "bindata" ∈ m.content.map (·.1) → ∃ parts, m.content = parts.flatten ∧
      PartsOf ⟨some ver, some (parentOf rs.out (parseModels (directReader ver) rs).out i)⟩
        ((memberClasses m.type).map membersOf) parts) ∧
    (∀ n ∈ m.content.map (·.1), ∃ c ∈ memberClasses m.type, n ∈ (membersOf c).names) := by
  obtain ⟨parent, s, h⟩ := parseModels_good (directReader ver) rs i m hm
  have ht := resolved_type h.resolved
  have hr := resolveModel_reads h.resolved
  rw [h.parentOf] at hr
  refine ⟨ht, ?_, ?_⟩
  · intro hb
    by_cases hbd : m.type = "BinData"
    · have hb := hb.resolve_left (fun h => h hbd)
      have e : memberClasses m.type = ["BinData"] := by rw [hbd]; decide +kernel
      rw [e] at hr ⊢
      have h1 := reads_one hr
      refine ⟨[m.content], by simp, ?_⟩
      simp only [List.map_cons, List.map_nil, PartsOf, and_true]
      refine (directRead_ok h1).1 ?_
      have e : selNames (membersOf "BinData") = ["bindata"] := by decide +kernel
      rw [e]
      simpa using hb
    · exact reads_parts hr (classes_plain _ ht hbd) (classes_disjoint _ ht)
  · clear h
    generalize m.content = content at hr
    generalize memberClasses m.type = cs at hr
    generalize m.record.payload = payload at hr
    induction hr with
    | @one c s v r h1 =>
      intro n hn
      exact ⟨c, by simp, (directRead_ok h1).2 n hn⟩
    | @snoc cs c s v w r r' h1 h2 ih =>
      intro n hn
      have : n ∈ v.map (·.1) ∨ n ∈ w.map (·.1) := by
        clear ih h1 h2
        change n ∈ (contentUpdate v w).map (·.1) at hn
        unfold contentUpdate at hn
        induction w generalizing v with
        | nil => exact Or.inl hn
        | cons a w ih =>
          rw [List.foldl_cons] at hn
          rcases ih hn with h | h
          · have hs : ∀ (k : String) (x : Value PVal) (fs : Fields) (n : String), n ∈ (setField k x fs).map (·.1) → n = k ∨ n ∈ fs.map (·.1) := by
              intro k x fs n
              induction fs with
              | nil => simp [setField]
              | cons b fs ihf =>
                obtain ⟨b1, b2⟩ := b
                simp only [setField]
                split
                · simp; tauto
                · simp only [List.map_cons, List.mem_cons]
                  rintro (h | h)
                  · tauto
                  · rcases ihf h with h | h <;> tauto
            rcases hs _ _ _ _ h with h | h
            · right; simp [h]
            · left; exact h
          · right; simp only [List.map_cons, List.mem_cons]; exact Or.inr h
      rcases this with h | h
      · obtain ⟨c', h3, h4⟩ := ih n h
        exact ⟨c', by simp [h3], h4⟩
      · exact ⟨c, by simp, (directRead_ok h2).2 n h⟩

/-- A declared member: name and type. -/
def typesOf : DMembers → List (String × DTy)
  | .nil => []
  | .cons name _ _ t rest => (name, t) :: typesOf rest

theorem fields_lookup {ctx : DCtx} : ∀ (ms : DMembers) (acc fs : Fields) (n : String) (v : Value PVal),
    FieldsOf ctx ms acc fs → fs.lookup n = some v → ∃ t acc', (n, t) ∈ typesOf ms ∧ Shaped ctx t acc' v
  | .nil, acc, fs, n, v, h, hl => by
    simp only [FieldsOf] at h
    subst h
    simp at hl
  | .cons name version condition t rest, acc, fs, n, v, h, hl => by
    simp only [FieldsOf] at h
    rcases h with ⟨-, -, h⟩ | ⟨-, w, fs', rfl, h1, h2⟩
    · obtain ⟨t', acc', h3, h4⟩ := fields_lookup rest acc fs n v h hl
      exact ⟨t', acc', by simp [typesOf, h3], h4⟩
    · rw [List.lookup_cons] at hl
      split at hl
      · rename_i he
        simp at he hl
        subst he hl
        exact ⟨t, acc, by simp [typesOf], h1⟩
      · obtain ⟨t', acc', h3, h4⟩ := fields_lookup rest _ fs' n v h2 hl
        exact ⟨t', acc', by simp [typesOf, h3], h4⟩

theorem parts_lookup {ctx : DCtx} : ∀ (cs : List String) (parts : List Fields) (n : String) (v : Value PVal),
    PartsOf ctx (cs.map membersOf) parts → parts.flatten.lookup n = some v →
    ∃ c ∈ cs, ∃ t acc', (n, t) ∈ typesOf (membersOf c) ∧ Shaped ctx t acc' v
  | [], [], n, v, h, hl => by simp at hl
  | c :: cs, p :: ps, n, v, h, hl => by
    simp only [List.map_cons, PartsOf] at h
    rw [List.flatten_cons] at hl
    cases hp : p.lookup n with
    | some w =>
      rw [lookup_append_some hp] at hl
      injection hl with hl
      subst hl
      obtain ⟨t, acc', h1, h2⟩ := fields_lookup _ _ _ _ _ h.1 hp
      exact ⟨c, by simp, t, acc', h1, h2⟩
    | none =>
      have : ps.flatten.lookup n = some v := by
        rw [← hl]
        clear hl h
        induction p with
        | nil => rfl
        | cons a p ih =>
          obtain ⟨k, x⟩ := a
          rw [List.lookup_cons] at hp
          rw [List.cons_append, List.lookup_cons]
          split at hp
          · cases hp
          · exact ih hp
      obtain ⟨c', h1, h2⟩ := parts_lookup cs ps n v h.2 this
      exact ⟨c', by simp [h1], h2⟩
  | [], _ :: _, _, _, h, _ => by simp [PartsOf] at h
  | _ :: _, [], _, _, h, _ => by simp [PartsOf] at h

/-! ### Exceptions -/

theorem chid_read {ver : Version} {parent : Option (String × Fields)} {s s' : Bytes} {fs : Fields}
    (h : directRead ver parent "Control" s = .ok (fs, s')) : ∃ b, contentChid fs = .ok b := by
  have h1 := (directRead_ok h).1 (by
    have e : selNames (membersOf "Control") = [] := by decide +kernel
    rw [e]; simp)
  have e : membersOf "Control" = .cons "chid" none none (.prim .chid) .nil := rfl
  rw [e] at h1
  simp only [FieldsOf] at h1
  rcases h1 with ⟨h1, -⟩ | ⟨-, v, fs', rfl, h2, rfl⟩
  · rcases h1 with h1 | ⟨c, h1, -⟩
    · simp [versionOk] at h1
    · cases h1
  · cases v with
    | leaf x =>
      cases x with
      | chid b => exact ⟨b, by simp [contentChid]⟩
      | _ => simp [Shaped, PrimVal] at h2
    | _ => simp [Shaped] at h2

/-- The number of models of the paragraph parts can be counted, or is missing. -/
def CountsOk (content : Fields) : Prop :=
  ∀ n ∈ paraCounts, ∀ v, content.lookup n = some v → ∃ k, v = .leaf (.int k)

theorem directRead_error {ver : Version} {parent : Option (String × Fields)} {c : String} {s : Bytes} {e : PyErr}
    (h : directRead ver parent c s = .error e) :
    e = .parseError ∨ e = .keyError ∨ (e = .typeError ∧ ∃ t content, parent = some (t, content) ∧ ¬ CountsOk content) := by
  have hp : ParentFit (fun e => e = .keyError ∨ (e = .typeError ∧ ∃ t content, parent = some (t, content) ∧ ¬ CountsOk content))
      (⟨some ver, some parent⟩ : DCtx) paraCounts := by
    refine ⟨?_, Or.inr (Or.inl rfl)⟩
    intro n hn
    cases parent with
    | none => exact Or.inr ⟨.keyError, Or.inl rfl, rfl⟩
    | some p =>
      obtain ⟨t, content⟩ := p
      cases hl : content.lookup n with
      | none => exact Or.inr ⟨.keyError, Or.inl rfl, by simp [RefDecl.eval, getValue, hl, bind, Except.bind]⟩
      | some v =>
        by_cases hv : ∃ k, getInt v = .ok k
        · obtain ⟨k, hk⟩ := hv
          exact Or.inl ⟨k, by simp [RefDecl.eval, getValue, hl, bind, Except.bind, hk]⟩
        · refine Or.inr ⟨.typeError, Or.inr ⟨rfl, t, content, rfl, ?_⟩, ?_⟩
          · intro hc
            obtain ⟨k, rfl⟩ := hc n hn v hl
            exact hv ⟨k, rfl⟩
          · have : getInt v = .error .typeError := by
              unfold getInt at hv ⊢
              split <;> simp_all
            simp [RefDecl.eval, getValue, hl, bind, Except.bind, this]
  exact (read_members .keyError _ (Or.inl rfl) ⟨some ver, some parent⟩ paraCounts hp (membersOf c) [] [] s
    (classes_declared c) (by intro d hd; simp at hd) (classes_names c) (by simp)).1 e h

theorem readClasses_error {ver : Version} {parent : PFrame Fields} {e : PyErr} : ∀ (cs : List String) (content : Fields) (s : Bytes),
    readClasses (directReader ver) parent content s cs = .error e →
    e = .parseError ∨ e = .keyError ∨ (e = .typeError ∧ ∃ t content, parent.model = some (t, content) ∧ ¬ CountsOk content)
  | [], content, s, h => by simp [readClasses] at h
  | c :: cs, content, s, h => by
    simp only [readClasses, bind, Except.bind] at h
    cases h1 : (directReader ver).read parent.model c s with
    | error e' =>
      rw [h1] at h
      injection h with h
      subst h
      exact directRead_error h1
    | ok r =>
      rw [h1] at h
      exact readClasses_error cs _ _ h

theorem resolveModel_error {ver : Version} {parent : PFrame Fields} {r : Record} {e : PyErr}
    (h : resolveModel (directReader ver) parent r = .error e) :
    e = .parseError ∨ e = .keyError ∨ (e = .typeError ∧ ∃ t content, parent.model = some (t, content) ∧ ¬ CountsOk content) := by
  unfold resolveModel at h
  simp only [bind, Except.bind, pure, Except.pure] at h
  cases h1 : (directReader ver).read parent.model (baseType r.tagid) r.payload with
  | error e' =>
    rw [h1] at h
    injection h with h
    subst h
    exact directRead_error h1
  | ok v =>
    rw [h1] at h
    simp only at h
    cases h2 : extensionOf (directReader ver) (baseType r.tagid) parent v.1 with
    | error e' =>
      rw [h2] at h
      injection h with h
      subst h
      unfold extensionOf at h2
      simp only [bind, Except.bind, pure, Except.pure] at h2
      split at h2
      · rename_i hb
        rw [hb] at h1
        obtain ⟨b, hb⟩ := chid_read (s' := v.2) (fs := v.1) h1
        have : (directReader ver).chid v.1 = .ok b := hb
        rw [this] at h2
        cases h2
      · split at h2
        · split at h2
          · injection h2 with h2; exact Or.inr (Or.inl h2.symm)
          · cases h2
        · split at h2
          · split at h2
            · injection h2 with h2; exact Or.inr (Or.inl h2.symm)
            · cases h2
          · cases h2
    | ok o =>
      rw [h2] at h
      cases o with
      | none => cases h
      | some ext =>
        simp only at h
        cases h3 : readClasses (directReader ver) parent v.1 v.2 (extensionMro ext (baseType r.tagid)) with
        | error e' =>
          rw [h3] at h
          injection h with h
          subst h
          exact readClasses_error _ _ _ h3
        | ok w => rw [h3] at h; cases h

theorem go_errors {κ} (rd : ModelReader κ) (err : Option PyErr) (b : Nat) (e : PyErr) : ∀ (rs : List Record)
    (fs : List (PFrame κ)), (∀ l, (levelsOf rs)[0]? = some l → l ≤ b + fs.length) → (∀ r ∈ rs, b ≤ r.level) →
    (∀ i l l', (levelsOf rs)[i]? = some l → (levelsOf rs)[i + 1]? = some l' → l' ≤ l + 1) →
    (parseModelsGo rd err (some (b : Int)) (fs ++ [rootFrame]) rs).err = some e →
    err = some e ∨ ∃ r ∈ rs, ∃ parent, resolveModel rd parent r = .error e ∧
      (parent.model = none ∨ (∃ f ∈ fs, parent.model = f.model) ∨
        ∃ m ∈ (parseModelsGo rd err (some (b : Int)) (fs ++ [rootFrame]) rs).out, parent.model = some (m.type, m.content))
  | [], fs, hl, hbs, hst, h => by
    simp only [parseModelsGo] at h
    exact Or.inl h
  | r :: rs, fs, hl, hbs, hst, h => by
    have h0 := hbs r (by simp)
    have h1 : r.level ≤ b + fs.length := hl r.level rfl
    have e1 : (relLevel (some (b : Int)) (r.level : Int)).1 + 1 = ((r.level - b : Nat) : Int) + 1 := by
      simp only [relLevel]; omega
    have hlt : r.level - b ≤ fs.length := by omega
    have e2 : ((fs.drop (fs.length - (r.level - b)) ++ [rootFrame] : List (PFrame κ)).length : Int) = ((r.level - b : Nat) : Int) + 1 := by
      simp; omega
    rw [parseModelsGo, e1, popTo_spec rootFrame fs (r.level - b) hlt] at h ⊢
    simp only at h ⊢
    rw [if_neg (by rw [e2]; omega), if_pos e2] at h ⊢
    obtain ⟨parent, st, hps⟩ : ∃ parent st, fs.drop (fs.length - (r.level - b)) ++ [rootFrame] = parent :: st := by
      cases fs.drop (fs.length - (r.level - b)) with
      | nil => exact ⟨_, _, rfl⟩
      | cons a l => exact ⟨_, _, rfl⟩
    have hsub : ∀ f ∈ parent :: st, f.model = none ∨ ∃ g ∈ fs, f.model = g.model := by
      intro f hf
      rw [← hps, List.mem_append, List.mem_singleton] at hf
      rcases hf with hf | rfl
      · exact Or.inr ⟨f, List.mem_of_mem_drop hf, rfl⟩
      · exact Or.inl rfl
    rw [hps] at h ⊢
    simp only at h ⊢
    cases hr : resolveModel rd parent r with
    | error e' =>
      rw [hr] at h
      simp only [Gen.raise, Option.some.injEq] at h
      subst h
      refine Or.inr ⟨r, by simp, parent, hr, ?_⟩
      rcases hsub parent (by simp) with h | h
      · exact Or.inl h
      · exact Or.inr (Or.inl h)
    | ok v =>
      obtain ⟨type, content, rest⟩ := v
      rw [hr] at h
      simp only at h ⊢
      have hst' : ∃ fs', (⟨some (type, content), false⟩ : PFrame κ) :: onChild parent type :: st = fs' ++ [rootFrame] ∧
          fs'.length = r.level - b + 1 ∧ ∀ f ∈ fs', f.model = some (type, content) ∨ ∃ g ∈ fs, f.model = g.model := by
        have hoc : (onChild parent type).model = parent.model := by unfold onChild; split <;> rfl
        generalize hd : fs.drop (fs.length - (r.level - b)) = ds at hps
        have hdl : ds.length = r.level - b := by rw [← hd]; simp; omega
        have hds : ∀ f ∈ ds, f ∈ fs := fun f hf => List.mem_of_mem_drop (hd ▸ hf)
        cases ds with
        | nil =>
          simp only [List.nil_append, List.cons.injEq] at hps
          obtain ⟨rfl, rfl⟩ := hps
          refine ⟨[⟨some (type, content), false⟩], ?_, by simp at hdl ⊢; omega, ?_⟩
          · simp [onChild, rootFrame, PFrame.type]
          · intro f hf; simp at hf; subst hf; exact Or.inl rfl
        | cons p ds =>
          simp only [List.cons_append, List.cons.injEq] at hps
          obtain ⟨rfl, rfl⟩ := hps
          refine ⟨⟨some (type, content), false⟩ :: onChild p type :: ds, by simp, by simp at hdl ⊢; omega, ?_⟩
          intro f hf
          simp only [List.mem_cons] at hf
          rcases hf with rfl | rfl | hf
          · exact Or.inl rfl
          · exact Or.inr ⟨p, hds p (by simp), hoc⟩
          · exact Or.inr ⟨f, hds f (by simp [hf]), rfl⟩
      obtain ⟨fs', h2, h3, h4⟩ := hst'
      rw [h2] at h ⊢
      have hb2 : (relLevel (some (b : Int)) (r.level : Int)).2 = (b : Int) := rfl
      rw [hb2] at h ⊢
      have := go_errors rd err b e rs fs' (fun l h5 => by have := hst 0 r.level l rfl h5; omega) (fun x hx => hbs x (by simp [hx]))
        (fun i l l' h5 h6 => hst (i + 1) l l' h5 h6) (by simpa [Gen.cons] using h)
      rcases this with h5 | ⟨r', h5, parent', h6, h7⟩
      · exact Or.inl h5
      · refine Or.inr ⟨r', by simp [h5], parent', h6, ?_⟩
        rcases h7 with h7 | ⟨f, h7, h8⟩ | ⟨m, h7, h8⟩
        · exact Or.inl h7
        · rcases h4 f h7 with h9 | ⟨g, h9, h10⟩
          · exact Or.inr (Or.inr ⟨_, List.mem_cons_self, by rw [h8, h9]⟩)
          · exact Or.inr (Or.inl ⟨g, h9, by rw [h8, h10]⟩)
        · exact Or.inr (Or.inr ⟨m, List.mem_cons_of_mem _ h7, h8⟩)

/-- Exceptions of parsing come from reading the records or from a record whose parent is the root or an earlier model. -/
theorem parse_errors {κ} (rd : ModelReader κ) (rs : Gen Record) (hl : TreeLevels (levelsOf rs.out)) (e : PyErr)
    (h : (parseModels rd rs).err = some e) :
    rs.err = some e ∨ ∃ r ∈ rs.out, ∃ parent, resolveModel rd parent r = .error e ∧
      (parent.model = none ∨ ∃ m ∈ (parseModels rd rs).out, parent.model = some (m.type, m.content)) := by
  unfold parseModels at h ⊢
  cases hrs : rs.out with
  | nil =>
    rw [hrs] at h
    exact Or.inl h
  | cons r l =>
    rw [hrs] at h hl
    simp only [levelsOf, List.map_cons, TreeLevels] at hl
    rw [parseModelsGo_start] at h ⊢
    have := go_errors rd rs.err r.level e (r :: l) [] (fun x hx => by simp [levelsOf] at hx; simp [hx])
      (fun x hx => by
        simp only [List.mem_cons] at hx
        rcases hx with rfl | hx
        · exact Nat.le_refl _
        · exact hl.1 _ (List.mem_map_of_mem hx)) hl.2 h
    rcases this with h5 | ⟨r', h5, parent', h6, h7⟩
    · exact Or.inl h5
    · refine Or.inr ⟨r', h5, parent', h6, ?_⟩
      rcases h7 with h7 | ⟨f, h7, h8⟩ | h7
      · exact Or.inl h7
      · simp at h7
      · exact Or.inr h7

/-- Is a member one of the counts, with a type that is not a number? -/
def badCount (n : String) (t : DTy) : Bool :=
  paraCounts.contains n && match t with
    | .prim (.int _) => false
    | _ => true

theorem counts_ok {ver : Version} {rs : Gen Record} {m : PModel Fields}
    (hm : m ∈ (parseModels (directReader ver) rs).out) (h1 : m.type ≠ "ParaCharShape") (h2 : m.type ≠ "ParaLineSeg") :
    CountsOk m.content := by
  obtain ⟨i, hi⟩ := List.mem_iff_getElem?.mp hm
  obtain ⟨ht, hp, hs⟩ := model_parts hi
  intro n hn v hv
  by_cases hb : m.type = "BinData"
  · have hmem : n ∈ m.content.map (·.1) := by
      clear hp hs hi hm
      generalize m.content = c at hv
      induction c with
      | nil => simp at hv
      | cons a c ih =>
        obtain ⟨k, x⟩ := a
        rw [List.lookup_cons] at hv
        split at hv
        · rename_i he; simp at he; simp [he]
        · simp [ih hv]
    obtain ⟨c, h3, h4⟩ := hs n hmem
    rw [hb] at h3
    exfalso
    have : ∀ c ∈ memberClasses "BinData", ∀ n ∈ paraCounts, n ∉ (membersOf c).names := by decide +kernel
    exact this c h3 n hn h4
  · obtain ⟨parts, h3, h4⟩ := hp (Or.inl hb)
    rw [h3] at hv
    obtain ⟨c, h5, t, acc, h6, h7⟩ := parts_lookup _ _ _ _ h4 hv
    have key : ∀ t ∈ modelNames, t ≠ "ParaCharShape" → t ≠ "ParaLineSeg" → ∀ c ∈ memberClasses t,
        (typesOf (membersOf c)).all (fun p => !badCount p.1 p.2) = true := by decide +kernel
    have := key _ ht h1 h2 c h5
    rw [List.all_eq_true] at this
    have := this _ h6
    have hcn : paraCounts.contains n = true := by simpa using hn
    simp only [badCount, hcn, Bool.true_and, Bool.not_eq_true'] at this
    cases t with
    | prim p =>
      cases p with
      | int q =>
        cases v with
        | leaf x =>
          cases x with
          | int k => exact ⟨k, rfl⟩
          | _ => simp [Shaped, PrimVal] at h7
        | _ => simp [Shaped] at h7
      | _ => simp at this
    | _ => simp at this

end Hwp
