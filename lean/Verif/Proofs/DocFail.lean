/-
A generator that fails makes everything fail that is made of it.
-/
import Verif.Model.Document
import Verif.Proofs.DocAll
import Verif.Proofs.Grouping
import Verif.Props.ModelParse
set_option linter.unusedSimpArgs false
set_option linter.unusedVariables false
namespace Hwp

@[simp] theorem cons_err' {α} (a : α) (g : Gen α) : (Gen.cons a g).err = g.err := rfl
@[simp] theorem prepend_err' {α} (as : List α) (g : Gen α) : (Gen.prepend as g).err = g.err := rfl
@[simp] theorem raise_err' {α} (e : PyErr) : (Gen.raise e : Gen α).err = some e := rfl

theorem andThen_fails {α} (g h : Gen α) : (g.andThen h).err = none ↔ g.err = none ∧ h.err = none := by
  unfold Gen.andThen
  split <;> simp_all

theorem chain_fails {α} (gs : List (Gen α)) : (Gen.chain gs).err = none ↔ ∀ g ∈ gs, g.err = none := by
  induction gs with
  | nil => simp [Gen.chain, Gen.done]
  | cons g gs ih =>
    rw [Gen.chain]
    split <;> simp_all

theorem makeTextsGo_fails (err : Option PyErr) (es : List IEv) : ∀ stack, (makeTextsGo err stack es).err = none → err = none := by
  intro stack
  fun_induction makeTextsGo err stack es <;> first | assumption | (simp only [prepend_err', cons_err', raise_err']; assumption) | (simp_all [andThen_fails]; done) | (simp only [prepend_err']; split <;> simp_all; done) | (intro h; simp [andThen_fails] at h; simp_all; done) | skip

theorem inlineGo_fails (err : Option PyErr) (es : List IEv) : ∀ stack, (inlineGo err stack es).err = none → err = none := by
  intro stack
  fun_induction inlineGo err stack es <;> first | assumption | (simp only [prepend_err', cons_err', raise_err']; assumption) | (simp_all [andThen_fails]; done) | (simp only [prepend_err']; split <;> simp_all; done) | (intro h; simp [andThen_fails] at h; simp_all; done) | skip

theorem matchFieldsGo_fails (err : Option PyErr) (es : List IEv) : ∀ stack, (matchFieldsGo err stack es).err = none → err = none := by
  intro stack
  fun_induction matchFieldsGo err stack es <;> first | assumption | (simp only [prepend_err', cons_err', raise_err']; assumption) | (simp_all [andThen_fails]; done) | (simp only [prepend_err']; split <;> simp_all; done) | (intro h; simp [andThen_fails] at h; simp_all; done) | skip

theorem listHeaderGo_fails (isParent isChild : Item → Bool) (err : Option PyErr) (es : List IEv) : ∀ stack level,
    (listHeaderGo isParent isChild err stack level es).err = none → err = none := by
  intro stack level
  fun_induction listHeaderGo isParent isChild err stack level es <;> first | assumption | (simp only [prepend_err', cons_err', raise_err']; assumption) | (simp_all [andThen_fails]; done) | (simp only [prepend_err']; split <;> simp_all; done) | (intro h; simp [andThen_fails] at h; simp_all; done) | (rw [prepend_err']; cases hp : isParent _ <;> simp_all; done) | (rename_i ih; rw [prepend_err']; intro h; apply ih; rw [← h]; split <;> rfl) | skip

theorem tableBodyGo_fails (err : Option PyErr) (es : List IEv) : ∀ stack, (tableBodyGo err stack es).err = none → err = none := by
  intro stack
  fun_induction tableBodyGo err stack es <;> first | assumption | (simp only [prepend_err', cons_err', raise_err']; assumption) | (simp_all [andThen_fails]; done) | (simp only [prepend_err']; split <;> simp_all; done) | (intro h; simp [andThen_fails] at h; simp_all; done) | skip

theorem tokenizeTextGo_fails (err : Option PyErr) (es : List IEv) : (tokenizeTextGo err es).err = none → err = none := by
  fun_induction tokenizeTextGo err es <;> first | assumption | (simp only [prepend_err', cons_err', raise_err']; assumption) | (simp_all [andThen_fails]; done) | (simp only [prepend_err']; split <;> simp_all; done) | (intro h; simp [andThen_fails] at h; simp_all; done) | skip

theorem wrapSectionGo_fails (sectId : Option Nat) (err : Option PyErr) (es : List IEv) : ∀ buf,
    (wrapSectionGo sectId err buf es).err = none → err = none := by
  intro buf
  fun_induction wrapSectionGo sectId err buf es <;> first | assumption | (simp only [prepend_err', cons_err', raise_err']; assumption) | (simp_all [andThen_fails]; done) | (simp only [prepend_err']; split <;> simp_all; done) | (intro h; simp [andThen_fails] at h; simp_all; done) | skip

theorem wrapColumnsGo_fails (err : Option PyErr) (es : List (Ev (Option Item))) : ∀ stack,
    (wrapColumnsGo err stack es).err = none → err = none := by
  intro stack
  fun_induction wrapColumnsGo err stack es <;> first | assumption | (simp only [prepend_err', cons_err', raise_err']; assumption) | (simp_all [andThen_fails]; done) | (simp only [prepend_err']; split <;> simp_all; done) | (intro h; simp [andThen_fails] at h; simp_all; done) | skip

theorem sectionEvents_fails (sectId : Option Nat) (g : Gen IEv) (h : (sectionEvents sectId g).err = none) : g.err = none :=
  makeTextsGo_fails _ _ _ (inlineGo_fails _ _ _ (matchFieldsGo_fails _ _ _ (listHeaderGo_fails _ _ _ _ _ _ (listHeaderGo_fails _ _ _ _ _ _
    (tableBodyGo_fails _ _ _ (tokenizeTextGo_fails _ _ (wrapSectionGo_fails _ _ _ _ (wrapColumnsGo_fails _ _ _ h))))))))

theorem prefixEventErr_fails {α} (err : Option PyErr) (es : List (Int × α)) : ∀ base stack,
    (prefixEventErr err base stack es).err = none → err = none := by
  intro base stack
  fun_induction prefixEventErr err base stack es <;> first | assumption | (simp only [prepend_err', cons_err', raise_err']; assumption) | (simp_all [andThen_fails]; done) | (simp only [prepend_err']; split <;> simp_all; done) | (intro h; simp [andThen_fails] at h; simp_all; done) | skip

theorem modelEvents_fails {α} (root : α) (f : Nat → PModel Fields → α) (g : Gen (PModel Fields)) (h : (modelEvents root f g).err = none) :
    g.err = none := prefixEventErr_fails _ _ _ _ h

theorem embedGo_fails (bd : List (PyStr × Bytes)) (err : Option PyErr) (es : List (Ev ModelItem)) :
    (embedGo bd err es).err = none → err = none := by
  fun_induction embedGo bd err es <;> first | assumption | (simp only [prepend_err', cons_err', raise_err']; assumption) | (simp_all [andThen_fails]; done) | (simp only [prepend_err']; split <;> simp_all; done) | (intro h; simp [andThen_fails] at h; simp_all; done) | skip

theorem wrap_fails {α} (w : α) (g : Gen (Ev α)) : (wrapModelevents w g).err = none ↔ g.err = none := by
  unfold wrapModelevents
  simp [andThen_fails, Gen.ofList]

theorem documentEvents_fails (rd : ModelReader Fields) (filetime : Nat → PyStr) (d : DocSource)
    (h : (documentEvents rd filetime d).err = none) :
    (summaryEvents filetime d.summary).err = none ∧ (streamModels rd d.docinfo).err = none ∧
    ∀ s ∈ d.sections, (streamModels rd s.2).err = none := by
  unfold documentEvents at h
  dsimp only at h
  rw [wrap_fails, chain_fails] at h
  simp only [List.mem_cons, List.not_mem_nil, or_false, forall_eq_or_imp, forall_eq] at h
  obtain ⟨h1, h2, h3⟩ := h
  refine ⟨h1, ?_, ?_⟩
  · unfold docinfoEvents at h2
    dsimp only at h2
    rw [wrap_fails] at h2
    split at h2
    · exact modelEvents_fails _ _ _ (embedGo_fails _ _ _ h2)
    · exact modelEvents_fails _ _ _ h2
  · intro s hs
    unfold bodyEvents at h3
    rw [wrap_fails, chain_fails] at h3
    have := h3 _ (List.mem_map.2 ⟨s, hs, rfl⟩)
    unfold sectionDocEvents at this
    exact modelEvents_fails _ _ _ (sectionEvents_fails _ _ this)

theorem modelToXml_fails (env : XmlEnv) (g : Gen (Ev ModelItem)) :
    (modelToXml env g).err = none ↔ g.err = none ∧ ∀ e ∈ g.out, (xmlOfEvent env e).err = none := by
  unfold modelToXml
  rw [andThen_fails, chain_fails]
  simp only [List.mem_map, forall_exists_index, and_imp, forall_apply_eq_imp_iff₂]
  exact and_comm

theorem chainModels_all {κ} (rd : ModelReader κ) (err : Option PyErr) (gs : List (List Record)) (h : (chainModels rd err gs).err = none) :
    err = none ∧ (chainModels rd err gs).out.map PModel.record = gs.flatten := by
  induction gs with
  | nil => exact ⟨h, rfl⟩
  | cons g gs ih =>
    rw [chainModels] at h ⊢
    have hp := (Props.C64_order rd (.ofList g)).2
    cases hg : parseModels rd (.ofList g) with
    | mk out e =>
      rw [hg] at h hp
      cases e with
      | some e => simp at h
      | none =>
        obtain ⟨h1, h2⟩ := ih h
        refine ⟨h1, ?_⟩
        simp only [Gen.prepend, List.map_append, h2, (hp rfl).1, List.flatten_cons]
        rfl

/-- Models of a stream that are delivered without exception are the models of all records. -/
theorem streamModels_all {κ} (rd : ModelReader κ) (s : Bytes) (h : (streamModels rd s).err = none) :
    (readRecords s).err = none ∧ (streamModels rd s).out.map PModel.record = (readRecords s).out := by
  obtain ⟨h1, h2⟩ := chainModels_all rd _ _ h
  unfold streamModels
  rw [h2]
  unfold groupByTop at h1 ⊢
  cases hr : (readRecords s).out with
  | nil => rw [hr] at h1; exact ⟨h1, by simp⟩
  | cons r rs =>
    rw [hr] at h1
    simp only at h1 ⊢
    cases he : (readRecords s).err with
    | some e => rw [he, (groupLoop_err r rs e).1] at h1; cases h1
    | none => exact ⟨rfl, (groupLoop_ok r rs).2.1.flat⟩

end Hwp
