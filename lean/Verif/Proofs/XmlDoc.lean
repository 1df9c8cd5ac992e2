/- Whole documents and embedded data. -/
import Verif.Proofs.XmlParse
import Verif.Proofs.Enum
set_option linter.unusedSimpArgs false
namespace Hwp
open Spec

/-- Legal and not a carriage return. -/
def Good (c : Nat) : Prop := xmlChar c = true ∧ c ≠ 0xD

theorem nameChar_good {c : Nat} (h : nameChar c = true) : Good c := by
  simp [nameChar, nameStart] at h
  constructor
  · simp [xmlChar]; omega
  · omega

theorem validName_good {n : PyStr} (h : ValidName n) : ∀ c ∈ n, Good c :=
  fun c hc => nameChar_good (validName_all h c hc)

theorem good_of_ascii {c : Nat} (h1 : 0x20 ≤ c) (h2 : c < 0x7F) : Good c := by
  constructor
  · simp [xmlChar]; omega
  · omega

theorem escA_good {q : Bool} {v : PyStr} (h : Writable v) : ∀ c ∈ (noNul v).flatMap (escA q), Good c := by
  intro x hx
  rw [List.mem_flatMap] at hx
  obtain ⟨c, hc, hx⟩ := hx
  simp [noNul] at hc
  rcases escA_mem hx with hm | hm
  · simp at hm; exact good_of_ascii (by omega) (by omega)
  · rw [hm.1]
    refine ⟨?_, by omega⟩
    rcases h c hc.1 with h | h
    · exact h
    · exact absurd h hc.2

theorem escT_good {v : PyStr} (h : Writable v) (hcr : 0xD ∉ v) :
    ∀ c ∈ (noNul v).flatMap escT, Good c := by
  intro x hx
  rw [List.mem_flatMap] at hx
  obtain ⟨c, hc, hx⟩ := hx
  simp [noNul] at hc
  rcases escT_mem hx with hm | hm
  · simp at hm; exact good_of_ascii (by omega) (by omega)
  · rw [hm.1]
    constructor
    · rcases h c hc.1 with h | h
      · exact h
      · exact absurd h hc.2
    · intro e; subst e; exact hcr hc.1

theorem attrQuote_good (v : PyStr) : Good (attrQuote v).1 := by
  rcases attrQuote_quote v with h | h <;> rw [h] <;> exact good_of_ascii (by omega) (by omega)

theorem attrsText_good (as : List (PyStr × PyStr)) (h : ∀ a ∈ as, ValidName a.1 ∧ Writable a.2) :
    ∀ c ∈ attrsText as, Good c := by
  induction as with
  | nil => simp [attrsText]
  | cons a as ih =>
    have ha := h a (by simp)
    have ih := ih (fun x hx => h x (by simp [hx]))
    intro c hc
    rw [attrsText_cons] at hc
    simp only [List.mem_append, List.mem_cons, List.not_mem_nil, or_false] at hc
    rcases hc with ((rfl | hc) | (rfl | rfl)) | ((hc | rfl) | hc)
    · exact good_of_ascii (by omega) (by omega)
    · exact validName_good ha.1 c hc
    · exact good_of_ascii (by omega) (by omega)
    · exact attrQuote_good _
    · exact escA_good ha.2 c hc
    · exact attrQuote_good _
    · exact ih c hc

theorem chunks_good (e : XEv) (h : EvOk e) : ∀ c ∈ (evChunks e).flatten, Good c := by
  intro c hc
  cases e with
  | start n as =>
    rw [chunks_start] at hc
    simp only [List.mem_append, List.mem_cons, List.not_mem_nil, or_false] at hc
    rcases hc with (rfl | hc) | (hc | rfl)
    · exact good_of_ascii (by omega) (by omega)
    · exact validName_good h.1 c hc
    · exact attrsText_good as h.2.2 c hc
    · exact good_of_ascii (by omega) (by omega)
  | stop n =>
    rw [chunks_stop] at hc
    simp only [List.mem_append, List.mem_cons, List.not_mem_nil, or_false] at hc
    rcases hc with ((rfl | rfl) | hc) | rfl
    · exact good_of_ascii (by omega) (by omega)
    · exact good_of_ascii (by omega) (by omega)
    · exact validName_good h c hc
    · exact good_of_ascii (by omega) (by omega)
  | text t =>
    rw [chunks_text] at hc
    exact escT_good h.1 h.2 c hc

theorem xmlText_good (evs : List XEv) (h : ∀ e ∈ evs, EvOk e) : ∀ c ∈ xmlText evs, Good c := by
  induction evs with
  | nil => simp [xmlText, xmlTextChunks]
  | cons e evs ih =>
    intro c hc
    rw [xmlText_cons, List.mem_append] at hc
    rcases hc with hc | hc
    · exact chunks_good e (h e (by simp)) c hc
    · exact ih (fun x hx => h x (by simp [hx])) c hc

theorem normEol_id (s : PyStr) (h : 0xD ∉ s) : normEol s = s := by
  induction s with
  | nil => rfl
  | cons c s ih =>
    simp at h
    rw [normEol.eq_def]
    split
    · rename_i heq; simp at heq; exact absurd heq.1.symm h.1
    · rename_i heq; simp at heq; exact absurd heq.1.symm h.1
    · rename_i heq; simp at heq; obtain ⟨rfl, rfl⟩ := heq; rw [ih h.2]
    · rename_i heq; simp at heq

theorem parseDocument_text (evs : List XEv) (h : ∀ e ∈ evs, EvOk e) (hr : OneRoot evs) :
    parseDocument (xmlText evs) = some (joined evs) := by
  have hg := xmlText_good evs h
  have hall : (xmlText evs).all xmlChar = true := by
    rw [List.all_eq_true]; exact fun c hc => (hg c hc).1
  have heol := normEol_id _ (fun hc => (hg _ hc).2 rfl)
  unfold parseDocument
  simp only [hall, if_true, heol]
  cases evs with
  | nil => simp [OneRoot] at hr
  | cons e evs =>
    cases e with
    | stop n => simp [OneRoot] at hr
    | text n => simp [OneRoot] at hr
    | start name as =>
      simp only [OneRoot] at hr
      have hcl := joined_clean _ h
      have hadj := joined_noAdj (.start name as :: evs)
      simp only [joined] at hcl hadj
      rw [← xmlText_joined]
      simp only [joined, xmlText_cons, chunks_start]
      have hc := hcl _ (List.mem_cons_self)
      obtain ⟨c', s', h1, h2⟩ := attrsText_head (as.map fun a => (a.1, noNul a.2)) (xmlText (joined evs))
      have hlen := attrsText_length (as.map fun a => (a.1, noNul a.2))
      simp only [List.cons_append, List.nil_append, List.append_assoc]
      rw [h1, parseName_append _ _ _ hc.1 h2, ← h1]
      simp only
      rw [parseAttrs_text _ _ _ (by simp at hlen ⊢; omega) hc.2.1 hc.2.2]
      simp only
      rw [parseContent_text _ _ _ (by omega) (joined_inside _ _ hr) (noAdj_tail hadj)
        (fun e he => hcl e (by simp [he]))]
      rfl

/-! ### Base64 -/

theorem b64Val_char : ∀ n < 64, b64Val (b64Char n) = some n ∧ b64Char n ≠ '=' ∧ b64Char n ≠ '\n' := by
  decide +kernel

theorem ofNat_toNat' (a : UInt8) (n : Nat) (h : n = a.toNat) : UInt8.ofNat n = a := by
  subst h; simp

theorem b64decode_encode (d : Bytes) : b64decode (b64encode d) = some d := by
  induction hk : d.length using Nat.strongRecOn generalizing d with
  | ind k ih =>
    match d with
    | [] => rfl
    | [a] =>
      have ha := a.toNat_lt
      have h1 := b64Val_char (a.toNat / 4) (by omega)
      have h2 := b64Val_char (a.toNat % 4 * 16) (by omega)
      simp only [b64encode, b64decode, h1.1, h2.1, bind, Option.bind, pure]
      rw [ofNat_toNat' a _ (by omega)]
    | [a, b] =>
      have ha := a.toNat_lt
      have hb := b.toNat_lt
      have h1 := b64Val_char (a.toNat / 4) (by omega)
      have h2 := b64Val_char (a.toNat % 4 * 16 + b.toNat / 16) (by omega)
      have h3 := b64Val_char (b.toNat % 16 * 4) (by omega)
      simp only [b64encode]
      rw [b64decode]
      · simp only [h1.1, h2.1, h3.1, bind, Option.bind, pure]
        rw [ofNat_toNat' a _ (by omega), ofNat_toNat' b _ (by omega)]
      · exact h3.2.1
    | a :: b :: c :: rest =>
      have ha := a.toNat_lt
      have hb := b.toNat_lt
      have hc := c.toNat_lt
      have h1 := b64Val_char (a.toNat / 4) (by omega)
      have h2 := b64Val_char (a.toNat % 4 * 16 + b.toNat / 16) (by omega)
      have h3 := b64Val_char (b.toNat % 16 * 4 + c.toNat / 64) (by omega)
      have h4 := b64Val_char (c.toNat % 64) (by omega)
      have ih' := ih rest.length (by simp at hk; omega) rest rfl
      simp only [b64encode]
      rw [b64decode]
      · simp only [h1.1, h2.1, h3.1, h4.1, ih', bind, Option.bind, pure]
        rw [ofNat_toNat' a _ (by omega), ofNat_toNat' b _ (by omega), ofNat_toNat' c _ (by omega)]
      · intro e; exact absurd e h3.2.1
      · intro e; exact absurd e h4.2.1

theorem b64encode_no_newline (d : Bytes) : '\n' ∉ b64encode d := by
  induction hk : d.length using Nat.strongRecOn generalizing d with
  | ind k ih =>
    match d with
    | [] => simp [b64encode]
    | [a] =>
      have ha := a.toNat_lt
      have h1 := b64Val_char (a.toNat / 4) (by omega)
      have h2 := b64Val_char (a.toNat % 4 * 16) (by omega)
      simp [b64encode, h1.2.2.symm, h2.2.2.symm]
    | [a, b] =>
      have ha := a.toNat_lt
      have hb := b.toNat_lt
      have h1 := b64Val_char (a.toNat / 4) (by omega)
      have h2 := b64Val_char (a.toNat % 4 * 16 + b.toNat / 16) (by omega)
      have h3 := b64Val_char (b.toNat % 16 * 4) (by omega)
      simp [b64encode, h1.2.2.symm, h2.2.2.symm, h3.2.2.symm]
    | a :: b :: c :: rest =>
      have ha := a.toNat_lt
      have hb := b.toNat_lt
      have hc := c.toNat_lt
      have h1 := b64Val_char (a.toNat / 4) (by omega)
      have h2 := b64Val_char (a.toNat % 4 * 16 + b.toNat / 16) (by omega)
      have h3 := b64Val_char (b.toNat % 16 * 4 + c.toNat / 64) (by omega)
      have h4 := b64Val_char (c.toNat % 64) (by omega)
      have ih' := ih rest.length (by simp at hk; omega) rest rfl
      simp [b64encode, h1.2.2.symm, h2.2.2.symm, h3.2.2.symm, h4.2.2.symm, ih']

theorem split64_flatten (s : List Char) : (split64 s).flatten = s := by
  induction hk : s.length using Nat.strongRecOn generalizing s with
  | ind k ih =>
    rw [split64]
    split
    · rename_i h; simp [h]
    split
    · rw [List.flatten_cons, ih (s.drop 64).length (by simp; omega) (s.drop 64) rfl]; simp
    · simp

theorem split64_le (s : List Char) : ∀ l ∈ split64 s, l.length ≤ 64 ∧ l ≠ [] ∧ ∀ c ∈ l, c ∈ s := by
  induction hk : s.length using Nat.strongRecOn generalizing s with
  | ind k ih =>
    rw [split64]
    split
    · simp
    split
    · rename_i h0 h
      intro l hl
      simp only [List.mem_cons] at hl
      rcases hl with rfl | hl
      · refine ⟨by simp; omega, ?_, fun c hc => List.mem_of_mem_take hc⟩
        intro e
        have := congrArg List.length e
        simp at this; simp [this] at h0
      · have := ih (s.drop 64).length (by simp; omega) (s.drop 64) rfl l hl
        exact ⟨this.1, this.2.1, fun c hc => List.mem_of_mem_drop (this.2.2 c hc)⟩
    · rename_i h0 h
      intro l hl
      simp at hl; subst hl
      exact ⟨by omega, h0, fun c hc => hc⟩

theorem textLines_ne_nil (s : List Char) : textLines s ≠ [] := by
  cases s with
  | nil => simp [textLines]
  | cons c s =>
    rw [textLines.eq_def]
    split <;> simp
    split <;> simp

theorem textLines_line (l rest : List Char) (h : '\n' ∉ l) :
    textLines (l ++ '\n' :: rest) = l :: textLines rest := by
  induction l with
  | nil => simp [textLines]
  | cons c l ih =>
    simp at h
    have ih := ih h.2
    rw [List.cons_append, textLines.eq_def]
    split
    · rename_i heq; simp at heq
    · rename_i heq; simp at heq; exact absurd heq.1.symm h.1
    · rename_i heq; simp at heq; obtain ⟨rfl, rfl⟩ := heq
      rw [ih]

theorem textLines_join (ls : List (List Char)) (h : ∀ l ∈ ls, '\n' ∉ l) :
    textLines (joinWith ['\n'] ls ++ ['\n']) = (if ls = [] then [[]] else ls) ++ [[]] := by
  induction ls with
  | nil => simp [joinWith, textLines]
  | cons l ls ih =>
    have hl := h l (by simp)
    have ih := ih (fun x hx => h x (by simp [hx]))
    cases ls with
    | nil =>
      simp only [joinWith]
      rw [textLines_line l [] hl]
      simp [textLines]
    | cons l' ls =>
      rw [joinWith]
      · simp only [List.append_assoc, List.cons_append, List.nil_append]
        rw [textLines_line l _ hl, ih]
        simp
      · simp

end Hwp
