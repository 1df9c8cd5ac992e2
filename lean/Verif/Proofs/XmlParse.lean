/- Serialised events parse back. -/
import Verif.Proofs.Xml
set_option linter.unusedSimpArgs false
namespace Hwp
open Spec

/-! ### Joining text -/

theorem xmlText_cons (e : XEv) (evs : List XEv) :
    xmlText (e :: evs) = (evChunks e).flatten ++ xmlText evs := by
  simp [xmlText, xmlTextChunks, List.flatMap_cons]

theorem chunks_text (t : PyStr) : (evChunks (.text t)).flatten = (noNul t).flatMap escT := by
  simp [evChunks, text_serialised]

/-- Serialised attributes. -/
def attrsText (as : List (PyStr × PyStr)) : PyStr := (as.flatMap attrChunks).flatten

theorem attrsText_cons (a : PyStr × PyStr) (as : List (PyStr × PyStr)) :
    attrsText (a :: as) = [0x20] ++ a.1 ++ [0x3D, (attrQuote a.2).1] ++
      ((noNul a.2).flatMap (escA (attrQuote a.2).2) ++ [(attrQuote a.2).1] ++ attrsText as) := by
  have h1 : lit " " = [0x20] := by decide
  have h2 : lit "=" = [0x3D] := by decide
  simp [attrsText, attrChunks, List.flatMap_cons, attr_serialised, h1, h2]

theorem chunks_start (n : PyStr) (as : List (PyStr × PyStr)) :
    (evChunks (.start n as)).flatten = [0x3C] ++ n ++ (attrsText as ++ [0x3E]) := by
  have h1 : lit "<" = [0x3C] := by decide
  have h2 : lit ">" = [0x3E] := by decide
  simp [evChunks, attrsText, h1, h2]

theorem chunks_stop (n : PyStr) : (evChunks (.stop n)).flatten = [0x3C, 0x2F] ++ n ++ [0x3E] := by
  have h1 : lit "</" = [0x3C, 0x2F] := by decide
  have h2 : lit ">" = [0x3E] := by decide
  simp [evChunks, h1, h2]

theorem noNul_noNul (s : PyStr) : noNul (noNul s) = noNul s := by simp [noNul]

theorem attrsText_noNul (as : List (PyStr × PyStr)) :
    attrsText (as.map fun a => (a.1, noNul a.2)) = attrsText as := by
  induction as with
  | nil => rfl
  | cons a as ih =>
    rw [List.map_cons, attrsText_cons, attrsText_cons, ih]
    simp only [attrQuote_noNul, noNul_noNul]

theorem noNul_append (s t : PyStr) : noNul (s ++ t) = noNul s ++ noNul t := by simp [noNul]

theorem joined_noNul_head (evs : List XEv) (u : PyStr) (r : List XEv)
    (h : joined evs = .text u :: r) : noNul u = u ∧ u ≠ [] := by
  induction evs generalizing u r with
  | nil => simp [joined] at h
  | cons e evs ih =>
    cases e with
    | start n as => simp [joined] at h
    | stop n => simp [joined] at h
    | text t =>
      simp only [joined] at h
      split at h
      · rename_i u' r' hj
        simp at h
        have := ih u' r' hj
        rw [← h.1, noNul_append, noNul_noNul, this.1]
        exact ⟨rfl, by simp [this.2]⟩
      · rename_i r' hne
        split at h
        · rename_i h0; exact absurd h (hne u r)
        · rename_i h0
          simp at h
          rw [← h.1]
          exact ⟨noNul_noNul t, h0⟩

theorem xmlText_joined (evs : List XEv) : xmlText (joined evs) = xmlText evs := by
  induction evs with
  | nil => rfl
  | cons e evs ih =>
    cases e with
    | start n as =>
      simp only [joined, xmlText_cons, chunks_start, attrsText_noNul, ih]
    | stop n => simp only [joined, xmlText_cons, chunks_stop, ih]
    | text t =>
      rw [xmlText_cons, ← ih, chunks_text]
      simp only [joined]
      split
      · rename_i u r' hj
        have hu := joined_noNul_head _ _ _ hj
        simp only [hj, xmlText_cons, chunks_text, noNul_append, noNul_noNul, hu.1,
          List.flatMap_append, List.append_assoc]
      · split
        · rename_i h0; rw [h0]; simp
        · rw [xmlText_cons, chunks_text, noNul_noNul]

/-- What parsing needs: joined events. -/
def Clean : XEv → Prop
  | .start n as => ValidName n ∧ (as.map (·.1)).Nodup ∧
      ∀ a ∈ as, ValidName a.1 ∧ noNul a.2 = a.2
  | .stop n => ValidName n
  | .text t => t ≠ [] ∧ noNul t = t

/-- No two adjacent text events. -/
def NoAdj : List XEv → Prop
  | .text _ :: .text _ :: _ => False
  | _ :: r => NoAdj r
  | [] => True

theorem joined_clean (evs : List XEv) (h : ∀ e ∈ evs, EvOk e) : ∀ e ∈ joined evs, Clean e := by
  induction evs with
  | nil => simp [joined]
  | cons e evs ih =>
    have ih := ih (fun e he => h e (by simp [he]))
    have he := h e (by simp)
    cases e with
    | start n as =>
      simp only [joined, List.mem_cons]
      rintro x (rfl | hx)
      · refine ⟨he.1, ?_, ?_⟩
        · have : (as.map fun a => (a.1, noNul a.2)).map (·.1) = as.map (·.1) := by simp
          rw [this]; exact he.2.1
        · intro a ha
          simp only [List.mem_map] at ha
          obtain ⟨b, hb, rfl⟩ := ha
          exact ⟨(he.2.2 b hb).1, noNul_noNul _⟩
      · exact ih x hx
    | stop n =>
      simp only [joined, List.mem_cons]
      rintro x (rfl | hx)
      · exact he
      · exact ih x hx
    | text t =>
      simp only [joined]
      split
      · rename_i u r' hj
        have hu := joined_noNul_head _ _ _ hj
        intro x hx
        simp only [List.mem_cons] at hx
        rcases hx with rfl | hx
        · exact ⟨by simp [hu.2], by rw [noNul_append, noNul_noNul, hu.1]⟩
        · exact ih x (by rw [hj]; simp [hx])
      · split
        · exact ih
        · rename_i h0
          intro x hx
          simp only [List.mem_cons] at hx
          rcases hx with rfl | hx
          · exact ⟨h0, noNul_noNul t⟩
          · exact ih x hx

theorem joined_noAdj (evs : List XEv) : NoAdj (joined evs) := by
  induction evs with
  | nil => trivial
  | cons e evs ih =>
    cases e with
    | start n as => simpa [joined, NoAdj] using ih
    | stop n => simpa [joined, NoAdj] using ih
    | text t =>
      simp only [joined]
      split
      · rename_i u r' hj
        rw [hj] at ih
        cases r' with
        | nil => trivial
        | cons x r' => cases x <;> simpa [NoAdj] using ih
      · rename_i r' hne
        split
        · exact ih
        · revert ih hne
          cases joined evs with
          | nil => intros; trivial
          | cons x r' =>
            intro ih hne
            cases x with
            | start n as => simpa [NoAdj] using ih
            | stop n => simpa [NoAdj] using ih
            | text u => exact absurd rfl (hne u r')

theorem joined_inside (st : List PyStr) (evs : List XEv) (h : Inside st evs) :
    Inside st (joined evs) := by
  induction evs generalizing st with
  | nil => exact h
  | cons e evs ih =>
    cases st with
    | nil => simp [Inside] at h
    | cons top st =>
      cases e with
      | start n as =>
        simp only [joined, Inside] at h ⊢
        exact ih _ h
      | stop n =>
        simp only [joined, Inside] at h ⊢
        exact ⟨h.1, ih _ h.2⟩
      | text t =>
        simp only [Inside] at h
        have := ih _ h
        simp only [joined]
        split
        · rename_i u r' hj; rw [hj] at this; simpa [Inside] using this
        · split
          · exact this
          · simpa [Inside] using this

/-! ### Parsing -/

theorem nameStart_nameChar {c : Nat} (h : nameStart c = true) : nameChar c = true := by
  simp [nameChar, h]

theorem validName_all {n : PyStr} (h : ValidName n) : ∀ c ∈ n, nameChar c = true := by
  cases n with
  | nil => simp
  | cons c cs =>
    intro x hx
    simp at hx
    rcases hx with rfl | hx
    · exact nameStart_nameChar h.1
    · exact h.2 x hx

theorem takeWhile_append_stop {p : Nat → Bool} (n : PyStr) (c : Nat) (s : PyStr)
    (h : ∀ x ∈ n, p x = true) (hc : p c = false) :
    (n ++ c :: s).takeWhile p = n ∧ (n ++ c :: s).dropWhile p = c :: s := by
  induction n with
  | nil => simp [hc]
  | cons x n ih =>
    have := ih (fun y hy => h y (by simp [hy]))
    have hx := h x (by simp)
    simp [hx, this]

theorem parseName_append (n : PyStr) (c : Nat) (s : PyStr) (h : ValidName n)
    (hc : nameChar c = false) : parseName (n ++ c :: s) = some (n, c :: s) := by
  have := takeWhile_append_stop n c s (validName_all h) hc
  unfold parseName
  rw [this.1, this.2, if_pos h]

theorem attrSpace_id (q : Bool) (v : PyStr) :
    (v.flatMap (escA q)).map attrSpace = v.flatMap (escA q) := by
  have : ∀ x ∈ v.flatMap (escA q), attrSpace x = x := by
    intro x hx
    rw [List.mem_flatMap] at hx
    obtain ⟨c, _, hx⟩ := hx
    unfold attrSpace
    rw [if_neg]
    rcases escA_mem hx with h | h
    · simp at h; omega
    · omega
  exact (List.map_congr_left this).trans (List.map_id _)

theorem no_lt_attr (q : Bool) (v : PyStr) : 0x3C ∉ v.flatMap (escA q) := by
  intro hx
  rw [List.mem_flatMap] at hx
  obtain ⟨c, _, hx⟩ := hx
  rcases escA_mem hx with h | h
  · simp at h
  · omega

theorem parseAttrs_text (as : List (PyStr × PyStr)) (rest : PyStr) :
    ∀ n, as.length < n → (as.map (·.1)).Nodup → (∀ a ∈ as, ValidName a.1 ∧ noNul a.2 = a.2) →
    parseAttrs n (attrsText as ++ 0x3E :: rest) = some (as, rest) := by
  induction as with
  | nil =>
    intro n hn _ _
    obtain ⟨m, rfl⟩ : ∃ m, n = m + 1 := ⟨n - 1, by simp at hn; omega⟩
    simp [attrsText, parseAttrs]
  | cons a as ih =>
    intro n hn hnd hok
    obtain ⟨m, rfl⟩ : ∃ m, n = m + 1 := ⟨n - 1, by simp at hn; omega⟩
    obtain ⟨name, v⟩ := a
    simp only [List.map_cons, List.nodup_cons] at hnd
    have ha := hok (name, v) (by simp)
    rw [attrsText_cons]
    simp only [ha.2, List.append_assoc, List.cons_append, List.nil_append]
    rw [parseAttrs]
    rw [parseName_append _ _ _ ha.1 (by decide)]
    simp only [if_pos (attrQuote_quote v)]
    have hq := quote_not_inside v
    have hsplit := takeWhile_append_stop (p := fun x => decide (x ≠ (attrQuote v).1))
      (v.flatMap (escA (attrQuote v).2)) (attrQuote v).1 (attrsText as ++ 0x3E :: rest)
      (by intro x hx; simp; intro e; subst e; exact hq hx) (by simp)
    rw [hsplit.1, hsplit.2]
    simp only [if_neg (no_lt_attr _ _), attrSpace_id, unescape_attr]
    rw [ih m (by simp at hn; omega) hnd.2 (fun a ha => hok a (by simp [ha]))]
    simp only [if_neg hnd.1]

theorem no_gt_text (v : PyStr) : 0x3E ∉ v.flatMap escT := by
  intro hx
  rw [List.mem_flatMap] at hx
  obtain ⟨c, _, hx⟩ := hx
  rcases escT_mem hx with h | h
  · simp at h
  · omega

theorem no_lt_text (v : PyStr) : 0x3C ∉ v.flatMap escT := by
  intro hx
  rw [List.mem_flatMap] at hx
  obtain ⟨c, _, hx⟩ := hx
  rcases escT_mem hx with h | h
  · simp at h
  · omega

theorem hasCdEnd_false (s : PyStr) (h : 0x3E ∉ s) : hasCdEnd s = false := by
  induction s with
  | nil => rfl
  | cons c s ih =>
    simp at h
    rw [hasCdEnd.eq_def]
    split
    · rename_i heq; simp at heq; rw [heq.2] at h; simp at h
    · rename_i heq; simp at heq; rw [← heq.2]; exact ih h.2
    · rfl

theorem escT_ne_nil (c : Nat) : escT c ≠ [] := by
  unfold escT; split <;> (try split) <;> (try split) <;> simp

theorem flatMap_escT_cons {t : PyStr} (h : t ≠ []) : ∃ c s, t.flatMap escT = c :: s ∧ c ≠ 0x3C := by
  have hlt := no_lt_text t
  cases hs : t.flatMap escT with
  | nil =>
    cases t with
    | nil => exact absurd rfl h
    | cons c t =>
      rw [List.flatMap_cons] at hs
      exact absurd (List.append_eq_nil_iff.1 hs).1 (escT_ne_nil c)
  | cons c s =>
    refine ⟨c, s, rfl, ?_⟩
    intro e; subst e; rw [hs] at hlt; simp at hlt

theorem attrsText_length (as : List (PyStr × PyStr)) : as.length ≤ (attrsText as).length := by
  induction as with
  | nil => simp
  | cons a as ih => rw [attrsText_cons]; simp; omega

theorem validName_ne_slash {n : PyStr} (h : ValidName n) : ∃ c s, n = c :: s ∧ c ≠ 0x2F := by
  cases n with
  | nil => exact absurd h (by simp [ValidName])
  | cons c s =>
    refine ⟨c, s, rfl, ?_⟩
    intro e; subst e
    have := h.1
    revert this; decide

/-- A clean text event is followed by a tag. -/
theorem after_text {top : PyStr} {st : List PyStr} {t : PyStr} {evs : List XEv}
    (hadj : NoAdj (.text t :: evs)) (hin : Inside (top :: st) evs) :
    ∃ s, xmlText evs = 0x3C :: s := by
  cases evs with
  | nil => simp [Inside] at hin
  | cons e evs =>
    cases e with
    | start n as => rw [xmlText_cons, chunks_start]; exact ⟨_, rfl⟩
    | stop n => rw [xmlText_cons, chunks_stop]; exact ⟨_, rfl⟩
    | text u => simp [NoAdj] at hadj

theorem noAdj_tail {e : XEv} {evs : List XEv} (h : NoAdj (e :: evs)) : NoAdj evs := by
  cases e with
  | start n as => simpa [NoAdj] using h
  | stop n => simpa [NoAdj] using h
  | text t =>
    cases evs with
    | nil => trivial
    | cons x evs => cases x <;> simp [NoAdj] at h ⊢ <;> exact h

theorem attrsText_head (as : List (PyStr × PyStr)) (rest : PyStr) :
    ∃ c s, attrsText as ++ 0x3E :: rest = c :: s ∧ nameChar c = false := by
  cases as with
  | nil => exact ⟨0x3E, rest, rfl, by decide⟩
  | cons a as => rw [attrsText_cons]; exact ⟨0x20, _, rfl, by decide⟩

theorem parseContent_text (evs : List XEv) : ∀ n st, (xmlText evs).length ≤ n → Inside st evs →
    NoAdj evs → (∀ e ∈ evs, Clean e) → parseContent n st (xmlText evs) = some evs := by
  induction evs with
  | nil =>
    intro n st _ hin _ _
    cases st with
    | nil => cases n <;> rfl
    | cons top st => simp [Inside] at hin
  | cons e evs ih =>
    intro n st hn hin hadj hcl
    have hcl' : ∀ e ∈ evs, Clean e := fun x hx => hcl x (by simp [hx])
    have hadj' := noAdj_tail hadj
    have hc := hcl e (by simp)
    cases st with
    | nil => simp [Inside] at hin
    | cons top st =>
      rw [xmlText_cons] at hn ⊢
      cases e with
      | stop name =>
        rw [chunks_stop] at hn ⊢
        simp only [Inside] at hin
        obtain ⟨m, rfl⟩ : ∃ m, n = m + 1 := ⟨n - 1, by simp at hn; omega⟩
        simp only [List.cons_append, List.nil_append, List.append_assoc]
        rw [parseContent, parseName_append _ _ _ hc (by decide)]
        simp only [if_pos hin.1]
        rw [ih m st (by simp at hn; omega) hin.2 hadj' hcl']
        rfl
      | start name as =>
        rw [chunks_start] at hn ⊢
        simp only [Inside] at hin
        obtain ⟨m, rfl⟩ : ∃ m, n = m + 1 := ⟨n - 1, by simp at hn; omega⟩
        simp only [List.cons_append, List.nil_append, List.append_assoc]
        obtain ⟨c, s, hcs, hslash⟩ := validName_ne_slash hc.1
        obtain ⟨c', s', h1, h2⟩ := attrsText_head as (xmlText evs)
        have hlen := attrsText_length as
        rw [parseContent]
        · rw [h1, parseName_append _ _ _ hc.1 h2, ← h1]
          simp only
          rw [parseAttrs_text as _ m (by simp at hn; omega) hc.2.1 hc.2.2]
          simp only
          rw [ih m _ (by simp at hn; omega) hin hadj' hcl']
          rfl
        · intro x hx
          rw [hcs] at hx
          simp at hx
          exact hslash hx.1
      | text t =>
        rw [chunks_text] at hn ⊢
        simp only [Inside] at hin
        rw [hc.2] at hn ⊢
        obtain ⟨c, s, hcs, hne⟩ := flatMap_escT_cons hc.1
        obtain ⟨s', hs'⟩ := after_text hadj hin
        obtain ⟨m, rfl⟩ : ∃ m, n = m + 1 := ⟨n - 1, by rw [hcs] at hn; simp at hn; omega⟩
        have hsplit := takeWhile_append_stop (p := fun x => decide (x ≠ 0x3C)) (t.flatMap escT) 0x3C s'
          (by intro x hx; simp; intro e; subst e; exact no_lt_text t hx) (by simp)
        have hcd := hasCdEnd_false _ (no_gt_text t)
        have hun := unescape_text t
        rw [hs']
        rw [hcs] at hsplit hcd hun hn ⊢
        rw [List.cons_append, parseContent.eq_def]
        split
        · rename_i heq; simp at heq
        · rename_i heq; simp at heq; exact absurd heq.1 hne
        · rename_i heq; simp at heq; exact absurd heq.1 hne
        · rename_i m' top' st' c2 s2 _ _ h1 h2 h3
          simp only [Nat.add_right_cancel_iff, List.cons.injEq] at h1 h2 h3
          obtain ⟨rfl, rfl⟩ := h2
          obtain ⟨rfl, rfl⟩ := h3
          obtain rfl : m = m' := Nat.succ.inj h1
          rw [← List.cons_append]
          simp only [hsplit.1, hsplit.2, hcd, hun]
          rw [← hs', ih m _ (by simp at hn; omega) hin hadj' hcl']
          rfl
        · rename_i hx1 hx2 hx3 hx4
          exact absurd rfl (hx4 _ _ _ _ _ rfl rfl)

end Hwp
