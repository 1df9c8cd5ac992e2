/- Lemmas about the names of record streams. -/
import Verif.Spec.StreamNames
import Verif.Model.StreamNames
import Verif.Proofs.Filestructure
import Verif.Proofs.Storage
set_option autoImplicit false
set_option linter.unusedSimpArgs false
namespace Hwp
open Spec

theorem openObj_iff (p : List PyStr) : ∀ (o x : Obj), openObj o p = .ok x ↔ Leads o p x := by
  induction p with
  | nil =>
    intro o x
    constructor
    · intro h
      simp only [openObj, Except.ok.injEq] at h
      subst h
      exact .here o
    · intro h
      cases h
      rfl
  | cons n p ih =>
    intro o x
    rw [openObj]
    constructor
    · intro h
      cases hg : o.getitem n with
      | error e => rw [hg] at h; cases h
      | ok a =>
        rw [hg] at h
        exact .step o a x n p hg ((ih a x).1 h)
    · intro h
      cases h with
      | step _ a _ _ _ h1 h2 =>
        rw [h1]
        exact (ih a x).2 h2

theorem withOpen_valueError (mk : Obj → Obj) (o : Obj) : Obj.withOpen mk o ≠ .error .valueError := by
  unfold Obj.withOpen
  split <;> simp

theorem convertFile_valueError (v : Version) (n : PyStr) (o : Obj) :
    Obj.convertFile v n o ≠ .error .valueError := by
  unfold Obj.convertFile
  repeat' split
  all_goals first
    | exact withOpen_valueError _ _
    | simp

/-- Taking an item never raises a `ValueError`. -/
theorem getitem_valueError (o : Obj) (n : PyStr) : o.getitem n ≠ .error .valueError := by
  induction o with
  | raw item =>
    cases item with
    | stream d => simp [Obj.getitem]
    | storage es =>
      rw [Obj.getitem]
      split <;> simp
  | compressedStream w ih | passwordStream w ih | fileHeader w ih | distStream w ih | previewText w ih =>
    simp [Obj.getitem]
  | versioned w v ih | summaryInfo w v ih => simp [Obj.getitem]
  | compressedStorage w ih | passwordStorage w ih | passwordDoc w ih | distStorage w ih | distDoc w ih
  | compression w ih =>
    rw [Obj.getitem]
    cases hw : w.getitem n with
    | error e => rw [hw] at ih; simpa [bind, Except.bind] using ih
    | ok x => simp [bind, Except.bind, pure, Except.pure]
  | sections w v ih =>
    rw [Obj.getitem]
    cases hw : w.getitem n with
    | error e => rw [hw] at ih; simpa [bind, Except.bind] using ih
    | ok x => simp [bind, Except.bind, pure, Except.pure]
  | fileBase w ih =>
    rw [Obj.getitem]
    cases hw : w.getitem n with
    | error e => rw [hw] at ih; simpa [bind, Except.bind] using ih
    | ok x =>
      simp only [bind, Except.bind]
      split
      · exact withOpen_valueError _ _
      · simp [pure, Except.pure]
  | hwpFile w h ih =>
    rw [Obj.getitem]
    cases hw : w.getitem n with
    | error e => rw [hw] at ih; simpa [bind, Except.bind] using ih
    | ok x =>
      simp only [bind, Except.bind]
      exact convertFile_valueError _ _ _

theorem bodySection_none (f : Obj) (t : PyStr) (h : pyInt t = none) :
    bodySection f t = .error .valueError := by
  rw [bodySection, h]

theorem openObj_two (f : Obj) (a b : PyStr) : openObj f [a, b] =
    (match f.getitem a with | .error e => .error e | .ok x => x.getitem b) := by
  rw [openObj]
  cases f.getitem a with
  | error e => rfl
  | ok x =>
    dsimp only
    rw [openObj]
    cases x.getitem b <;> rfl

theorem bodySection_some (f : Obj) (t : PyStr) (i : Int) (h : pyInt t = some i) :
    bodySection f t = openObj f [ustr "BodyText", ustr "Section" ++ decimal i] := by
  rw [bodySection, h, openObj_two]
  rfl

theorem openObj_valueError (p : List PyStr) : ∀ o : Obj, openObj o p ≠ .error .valueError := by
  induction p with
  | nil => intro o; simp [openObj]
  | cons n p ih =>
    intro o
    rw [openObj]
    have := getitem_valueError o n
    cases hg : o.getitem n with
    | error e => rw [hg] at this; simpa using this
    | ok x => exact ih x

theorem split_body (t : PyStr) (h : 0x2f ∉ t) :
    splitSlash (ustr "bodytext/" ++ t) = [ustr "bodytext", t] := by
  have e : ustr "bodytext/" ++ t = ustr "bodytext" ++ 0x2f :: t := rfl
  rw [e, splitSlash_append _ _ (by decide), splitSlash_plain t h]

/-- A name is resolved as the path it stands for. -/
theorem recordStream_path (f : Obj) (name : PyStr) (p : List PyStr) (h : NamesPath name p) :
    recordStream f name = openObj f p := by
  cases h with
  | docinfo =>
    rw [recordStream, if_pos rfl, openObj]
    cases f.getitem (ustr "DocInfo") <;> rfl
  | section_ t i h1 h2 =>
    rw [recordStream, if_neg (by
      intro h
      have : splitSlash (ustr "bodytext/" ++ t) = splitSlash (ustr "docinfo") := by rw [h]
      rw [split_body t h1, splitSlash_plain (ustr "docinfo") (by decide)] at this
      simp at this), split_body t h1]
    dsimp only
    rw [if_pos rfl, bodySection_some f t i h2]
    have := openObj_valueError [ustr "BodyText", ustr "Section" ++ decimal i] f
    cases hr : openObj f [ustr "BodyText", ustr "Section" ++ decimal i] with
    | ok x => rfl
    | error e =>
      rw [hr] at this
      cases e <;> first | rfl | exact absurd rfl this
  | path _ h1 h2 h3 h4 =>
    have hs := splitSlash_pathText p h1 h2
    rw [recordStream, if_neg (by
      intro h
      rw [h, splitSlash_plain (ustr "docinfo") (by decide)] at hs
      exact h3 hs.symm), hs]
    split
    · rename_i a b
      by_cases ha : a = ustr "bodytext"
      · rw [if_pos ha, bodySection_none f b (h4 b (by rw [ha]))]
      · rw [if_neg ha]
    · rfl

theorem splitSlash_noslash (s : PyStr) : ∀ t ∈ splitSlash s, 0x2f ∉ t := by
  induction s with
  | nil => simp [splitSlash]
  | cons c cs ih =>
    rw [splitSlash]
    split
    · intro t ht
      simp only [List.mem_cons] at ht
      rcases ht with rfl | ht
      · simp
      · exact ih t ht
    · rename_i hc
      unfold slash at hc
      cases hs : splitSlash cs with
      | nil =>
        intro t ht
        simp only [List.mem_cons, List.not_mem_nil, or_false] at ht
        subst ht
        simp only [List.mem_cons, List.not_mem_nil, or_false]
        exact fun h => hc h.symm
      | cons x xs =>
        rw [hs] at ih
        intro t ht
        simp only [List.mem_cons] at ht
        rcases ht with rfl | ht
        · simp only [List.mem_cons, not_or]
          exact ⟨fun h => hc h.symm, ih x (by simp)⟩
        · exact ih t (by simp [ht])

/-- Every name stands for a path. -/
theorem namesPath_exists (name : PyStr) : ∃ p, NamesPath name p := by
  have e := pathText_splitSlash name
  by_cases h1 : splitSlash name = [ustr "docinfo"]
  · rw [h1] at e
    have e : ustr "docinfo" = name := e
    subst e
    exact ⟨_, NamesPath.docinfo⟩
  · by_cases h2 : ∃ t i, splitSlash name = [ustr "bodytext", t] ∧ pyInt t = some i
    · obtain ⟨t, i, h3, h4⟩ := h2
      have hn := splitSlash_noslash name t (by rw [h3]; simp)
      rw [h3] at e
      have : pathText [ustr "bodytext", t] = ustr "bodytext/" ++ t := rfl
      rw [this] at e
      subst e
      exact ⟨_, NamesPath.section_ t i hn h4⟩
    · refine ⟨splitSlash name, ?_⟩
      have := NamesPath.path (splitSlash name) (splitSlash_ne name) (splitSlash_noslash name) h1 (by
        intro t ht
        cases hp : pyInt t with
        | none => rfl
        | some i => exact absurd ⟨t, i, ht, hp⟩ h2)
      rwa [e] at this

/-- Items without versions. -/
def unversioned : Obj → Bool
  | .raw _ => true
  | .versioned _ _ | .sections _ _ | .summaryInfo _ _ | .hwpFile _ _ => false
  | .compressedStream w | .compressedStorage w | .passwordStream w | .passwordStorage w | .passwordDoc w
  | .fileHeader w | .fileBase w | .distStream w | .distStorage w | .distDoc w | .compression w
  | .previewText w => unversioned w

theorem convertPassword_unversioned (n : PyStr) (o : Obj) :
    unversioned (Obj.convertPassword n o) = unversioned o := by
  unfold Obj.convertPassword
  repeat' split
  all_goals rfl

theorem convertDist_unversioned (n : PyStr) (o : Obj) :
    unversioned (Obj.convertDist n o) = unversioned o := by
  unfold Obj.convertDist
  split <;> rfl

theorem convertCompression_unversioned (n : PyStr) (o : Obj) :
    unversioned (Obj.convertCompression n o) = unversioned o := by
  unfold Obj.convertCompression
  repeat' split
  all_goals rfl

theorem withOpen_unversioned (mk : Obj → Obj) (hmk : ∀ w, unversioned (mk w) = unversioned w) (o x : Obj)
    (h : Obj.withOpen mk o = .ok x) : unversioned x = unversioned o := by
  unfold Obj.withOpen at h
  split at h
  · simp only [Except.ok.injEq] at h
    rw [← h, hmk]
  · cases h

theorem getitem_unversioned (o : Obj) (n : PyStr) : ∀ x, unversioned o = true → o.getitem n = .ok x →
    unversioned x = true := by
  induction o with
  | raw item =>
    intro x _ h
    cases item with
    | stream d => simp [Obj.getitem] at h
    | storage es =>
      rw [Obj.getitem] at h
      split at h
      · cases h
      · simp only [Except.ok.injEq] at h
        rw [← h]; rfl
  | compressedStream w ih | passwordStream w ih | fileHeader w ih | distStream w ih | previewText w ih =>
    intro x _ h
    simp [Obj.getitem] at h
  | versioned w v ih | summaryInfo w v ih | sections w v ih | hwpFile w v ih =>
    intro x h
    simp [unversioned] at h
  | compressedStorage w ih | passwordStorage w ih =>
    intro x hu h
    rw [Obj.getitem] at h
    cases hw : w.getitem n with
    | error e => rw [hw] at h; simp [bind, Except.bind] at h
    | ok y =>
      rw [hw] at h
      simp only [bind, Except.bind, pure, Except.pure, Except.ok.injEq] at h
      subst h
      have := ih y hu hw
      split
      · exact this
      · exact this
  | passwordDoc w ih =>
    intro x hu h
    rw [Obj.getitem] at h
    cases hw : w.getitem n with
    | error e => rw [hw] at h; simp [bind, Except.bind] at h
    | ok y =>
      rw [hw] at h
      simp only [bind, Except.bind, pure, Except.pure, Except.ok.injEq] at h
      subst h
      rw [convertPassword_unversioned]
      exact ih y hu hw
  | distStorage w ih =>
    intro x hu h
    rw [Obj.getitem] at h
    cases hw : w.getitem n with
    | error e => rw [hw] at h; simp [bind, Except.bind] at h
    | ok y =>
      rw [hw] at h
      simp only [bind, Except.bind, pure, Except.pure, Except.ok.injEq] at h
      subst h
      exact ih y hu hw
  | distDoc w ih =>
    intro x hu h
    rw [Obj.getitem] at h
    cases hw : w.getitem n with
    | error e => rw [hw] at h; simp [bind, Except.bind] at h
    | ok y =>
      rw [hw] at h
      simp only [bind, Except.bind, pure, Except.pure, Except.ok.injEq] at h
      subst h
      rw [convertDist_unversioned]
      exact ih y hu hw
  | compression w ih =>
    intro x hu h
    rw [Obj.getitem] at h
    cases hw : w.getitem n with
    | error e => rw [hw] at h; simp [bind, Except.bind] at h
    | ok y =>
      rw [hw] at h
      simp only [bind, Except.bind, pure, Except.pure, Except.ok.injEq] at h
      subst h
      rw [convertCompression_unversioned]
      exact ih y hu hw
  | fileBase w ih =>
    intro x hu h
    rw [Obj.getitem] at h
    cases hw : w.getitem n with
    | error e => rw [hw] at h; simp [bind, Except.bind] at h
    | ok y =>
      rw [hw] at h
      simp only [bind, Except.bind] at h
      have := ih y hu hw
      split at h
      · rw [withOpen_unversioned Obj.fileHeader (fun _ => rfl) _ _ h]; exact this
      · simp only [pure, Except.pure, Except.ok.injEq] at h
        rw [← h]; exact this

theorem leads_unversioned {o x : Obj} {p : List PyStr} (h : Leads o p x) :
    unversioned o = true → unversioned x = true := by
  induction h with
  | here o => exact id
  | step o a b n p h1 h2 ih => exact fun hu => ih (getitem_unversioned o n a hu h1)

theorem layers_unversioned (h : Header) (es : StgEntries) :
    unversioned (layers h (.fileBase (.raw (.storage es)))) = true := by
  unfold layers
  cases h.password <;> cases h.distributable <;> cases h.compressed <;> rfl

/-- Versioned items of a document are DocInfo and the sections. -/
theorem leads_versioned (w₀ : Obj) (h : Header) (hu : unversioned w₀ = true) (p : List PyStr) (w : Obj)
    (v : Version) (hi : Leads (.hwpFile w₀ h) p (.versioned w v)) :
    p = [ustr "DocInfo"] ∨ ∃ n, p = [ustr "BodyText", n] ∨ p = [ustr "ViewText", n] := by
  cases hi with
  | step _ a _ n p h1 h2 =>
    rw [Obj.getitem] at h1
    cases hw : w₀.getitem n with
    | error e => rw [hw] at h1; simp [bind, Except.bind] at h1
    | ok y =>
      rw [hw] at h1
      simp only [bind, Except.bind] at h1
      have hy := getitem_unversioned w₀ n y hu hw
      have sec : ∀ a, a = Obj.sections y h.version → Leads a p (.versioned w v) → ∃ m, p = [m] := by
        intro a ha hin
        subst ha
        cases hin with
        | step _ b _ m q g1 g2 =>
          rw [Obj.getitem] at g1
          cases hm : y.getitem m with
          | error e => rw [hm] at g1; simp [bind, Except.bind] at g1
          | ok z =>
            rw [hm] at g1
            simp only [bind, Except.bind, pure, Except.pure, Except.ok.injEq] at g1
            subst g1
            cases g2 with
            | here => exact ⟨m, rfl⟩
            | step _ _ _ _ _ k1 _ => simp [Obj.getitem] at k1
      unfold Obj.convertFile at h1
      split at h1
      · rename_i hn
        simp only [Except.ok.injEq] at h1
        subst h1
        cases h2 with
        | here => left; rw [hn]
        | step _ _ _ _ _ k1 _ => simp [Obj.getitem] at k1
      · split at h1
        · rename_i hn
          simp only [Except.ok.injEq] at h1
          obtain ⟨m, rfl⟩ := sec a h1.symm h2
          right; exact ⟨m, .inl (by rw [hn])⟩
        · split at h1
          · rename_i hn
            simp only [Except.ok.injEq] at h1
            obtain ⟨m, rfl⟩ := sec a h1.symm h2
            right; exact ⟨m, .inr (by rw [hn])⟩
          · exfalso
            split at h1
            · have := withOpen_unversioned Obj.previewText (fun _ => rfl) _ _ h1
              have := leads_unversioned h2 (this.trans hy)
              simp [unversioned] at this
            · split at h1
              · simp only [Except.ok.injEq] at h1
                subst h1
                cases h2 with
                | step _ _ _ _ _ k1 _ => simp [Obj.getitem] at k1
              · simp only [Except.ok.injEq] at h1
                subst h1
                have := leads_unversioned h2 hy
                simp [unversioned] at this

theorem decimal_noslash (i : Int) : 0x2f ∉ decimal i := by
  intro h
  cases i with
  | ofNat n =>
    have := decDigits_mem n _ h
    omega
  | negSucc n =>
    simp only [decimal, List.mem_cons] at h
    rcases h with h | h
    · cases h
    · have := decDigits_mem (n + 1) _ h
      omega

end Hwp
