/- Property C56: face names are split by language without loss. -/
import Verif.Model.DocInfo
set_option linter.unusedSimpArgs false
namespace Hwp.Props
open Hwp

variable {F S : Type}

/-- The number of face names declared for languages. -/
def declared (c : String → Nat) (langs : List String) : Nat := (langs.map c).sum

theorem splitFaces_ok (c : String → Nat) (faces : List F) (langs : List String) : ∀ off,
    ∃ out, splitFaces (some c) faces off langs = .ok out ∧ out.map (·.1) = langs ∧
      out.flatMap (·.2) = (faces.drop off).take (declared c langs) ∧
      (off + declared c langs ≤ faces.length → ∀ p ∈ out, p.2.length = c p.1) := by
  induction langs with
  | nil => intro off; exact ⟨[], rfl, rfl, by simp [declared], by simp⟩
  | cons l ls ih =>
    intro off
    obtain ⟨out, h1, h2, h3, h4⟩ := ih (off + c l)
    refine ⟨(l, pySlice faces off (off + c l)) :: out, ?_, ?_, ?_, ?_⟩
    · simp [splitFaces, h1, bind, Except.bind, pure, Except.pure]
    · simp [h2]
    · rw [List.flatMap_cons, h3]
      have e : declared c (l :: ls) = c l + declared c ls := by simp [declared]
      rw [e, List.take_add, List.drop_drop]
      simp [pySlice]
    · intro h p hp
      have e : declared c (l :: ls) = c l + declared c ls := by simp [declared]
      rcases List.mem_cons.1 hp with rfl | hp
      · simp [pySlice]; omega
      · exact h4 (by omega) p hp

/-- C56: if the id mappings declare exactly the face names that are there, the lists by
language have the declared sizes and are, one after another, the document's list. -/
theorem C56_partition (c : String → Nat) (faces : List F)
    (h : c "ko" + c "en" + c "cn" + c "jp" + c "other" + c "symbol" + c "user" = faces.length) :
    ∃ out, facenamesByLang (some c) faces = .ok out ∧
      out.map (·.1) = ["ko", "en", "cn", "jp", "other", "symbol", "user"] ∧
      out.flatMap (·.2) = faces ∧ ∀ p ∈ out, p.2.length = c p.1 := by
  obtain ⟨out, h1, h2, h3, h4⟩ := splitFaces_ok c faces languages 0
  have e : declared c languages = faces.length := by
    simp [declared, languages]; omega
  refine ⟨out, h1, h2, ?_, h4 (by omega)⟩
  rw [h3, e]; simp

/- Two Korean fonts, one English, one for users. -/
example : facenamesByLang (some fun l => if l = "ko" then 2 else if l = "en" ∨ l = "user" then 1 else 0)
    ["Batang", "Dotum", "Arial", "Mine"] =
    .ok [("ko", ["Batang", "Dotum"]), ("en", ["Arial"]), ("cn", []), ("jp", []), ("other", []),
      ("symbol", []), ("user", ["Mine"])] := by decide +kernel

/-- C56: in any case the lists are consecutive pieces of the document's list from its
beginning: nothing is duplicated or reordered, and only names beyond the declared number are
left out. -/
theorem C56_prefix (c : String → Nat) (faces : List F) :
    ∃ out, facenamesByLang (some c) faces = .ok out ∧
      out.flatMap (·.2) =
        faces.take (c "ko" + c "en" + c "cn" + c "jp" + c "other" + c "symbol" + c "user") := by
  obtain ⟨out, h1, h2, h3, h4⟩ := splitFaces_ok c faces languages 0
  refine ⟨out, h1, ?_⟩
  rw [h3]
  simp [declared, languages, Nat.add_assoc]

/- More names than declared: the surplus is dropped; fewer: the last languages get less. -/
example : ((facenamesByLang (some fun l => if l = "en" then 1 else 0) [10, 20]).toOption.map
    (fun o => o.flatMap (·.2))) = some [10] := by decide +kernel
example : ((facenamesByLang (some fun l => if l = "en" then 3 else 0) [10, 20]).toOption.map
    (fun o => o.flatMap (·.2))) = some [10, 20] := by decide +kernel

theorem splitFaces_find (c : String → Nat) (faces : List F) (lang : String) (before after : List String)
    (hn : lang ∉ before) : ∀ off out, splitFaces (some c) faces off (before ++ lang :: after) = .ok out →
    out.find? (fun p => p.1 = lang) =
      some (lang, pySlice faces (off + declared c before) (off + declared c before + c lang)) := by
  induction before with
  | nil =>
    intro off out h
    simp only [List.nil_append, splitFaces, bind, Except.bind] at h
    cases hr : splitFaces (some c) faces (off + c lang) after with
    | error e => simp [hr] at h
    | ok r =>
      simp only [hr, pure, Except.pure, Except.ok.injEq] at h
      subst h
      simp [declared]
  | cons l ls ih =>
    intro off out h
    simp only [List.cons_append, splitFaces, bind, Except.bind] at h
    cases hr : splitFaces (some c) faces (off + c l) (ls ++ lang :: after) with
    | error e => simp [hr] at h
    | ok r =>
      simp only [hr, pure, Except.pure, Except.ok.injEq] at h
      subst h
      have hl : ¬ l = lang := by
        intro e; exact hn (by simp [e])
      rw [List.find?_cons_of_neg (by simpa using hl), ih (by intro h; exact hn (by simp [h])) _ _ hr]
      have e : declared c (l :: ls) = c l + declared c ls := by simp [declared]
      rw [e, Nat.add_assoc off]

/-- C56: the face name of a character shape in a language is the one at the number given by
the character shape, counted from the end of the names of the languages before; it raises
`IndexError` if the number is not below the declared count or there is no such name. -/
theorem C56_charshape_face (c : String → Nat) (faces : List F) (shapes : List S)
    (fontFace : S → String → Option Nat) (id i : Nat) (lang : String) (before after : List String)
    (hl : languages = before ++ lang :: after) (s : S) (hs : shapes[id]? = some s)
    (hf : fontFace s lang = some i) :
    charshapeFacename (some c) faces shapes fontFace id lang =
      (if i < c lang then
        match faces[declared c before + i]? with
        | some f => .ok f
        | none => .error .indexError
      else .error .indexError) := by
  have hn : lang ∉ before := by
    intro hm
    have : languages.Nodup := by decide
    rw [hl, List.nodup_append] at this
    exact this.2.2 lang hm lang (by simp) rfl
  obtain ⟨out, h1, _, _, _⟩ := splitFaces_ok c faces languages 0
  have hfind := splitFaces_find c faces lang before after hn 0 out (by rw [← hl]; exact h1)
  unfold charshapeFacename facenamesByLang
  rw [hs]
  simp only [hf, h1, bind, Except.bind, hfind]
  simp only [pySlice, Nat.zero_add, Nat.add_sub_cancel_left]
  rw [List.getElem?_take]
  by_cases h : i < c lang
  · simp only [if_pos h, List.getElem?_drop]
    cases faces[declared c before + i]? <;> rfl
  · simp only [if_neg h]

/- Font 1 of the second language. -/
example : charshapeFacename (some fun l => if l = "ko" then 2 else if l = "en" then 2 else 0)
    ["Batang", "Dotum", "Arial", "Times"] [()] (fun _ _ => some 1) 0 "en" = .ok "Times" := by decide +kernel

/-- C56: without id mappings asking for the lists is a `TypeError`. -/
theorem C56_no_idmappings (faces : List F) : facenamesByLang none faces = .error .typeError := rfl

end Hwp.Props
