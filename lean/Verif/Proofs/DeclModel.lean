/- Proofs: payloads of models and their contents. -/
import Verif.Proofs.DeclBytes
set_option linter.unusedSimpArgs false
set_option linter.unusedVariables false
namespace Hwp
open Spec

theorem classes_writable (c : String) : writableMembers (membersOf c) = true :=
  all_members (P := writableMembers) rfl (by decide +kernel) c

theorem class_read_write {ver : Version} {parent : Option (String × Fields)} {c : String} {s r : Bytes} {fs : Fields}
    (h : directRead ver parent c s = .ok (fs, r)) (hs : ∀ n ∈ selNames (membersOf c), n ∈ fs.map (·.1))
    (hf : Follows (fixedMembers (membersOf c)) r) :
    ∃ b, writeMembers ⟨some ver, some parent⟩ (membersOf c) [] fs = some b ∧ s = b ++ r := by
  obtain ⟨fs', b, h1, h2, h3⟩ := read_write_members .keyError ⟨some ver, some parent⟩ paraCounts (membersOf c) [] [] fs s r
    (classes_declared c) (classes_names c) (by simp) h hs hf
  simp only [List.nil_append] at h1
  subst h1
  exact ⟨b, h2, h3⟩

theorem class_write_read {ver : Version} {parent : Option (String × Fields)} {c : String} {b : Bytes} {fs : Fields} (r : Bytes)
    (h : writeMembers ⟨some ver, some parent⟩ (membersOf c) [] fs = some b) :
    directRead ver parent c (b ++ r) = .ok (fs, r) := by
  have := write_read_members .keyError ⟨some ver, some parent⟩ (membersOf c) [] fs b r h (classes_names c) (by simp)
    (classes_writable c)
  simpa [directRead] using this

theorem written_names {ver : Version} {parent : Option (String × Fields)} {c : String} {b : Bytes} {fs : Fields}
    (h : writeMembers ⟨some ver, some parent⟩ (membersOf c) [] fs = some b) :
    ∀ n ∈ fs.map (·.1), n ∈ (membersOf c).names := by
  have := class_write_read [] h
  intro n hn
  exact (directRead_ok this).2 n hn

theorem selNames_names : ∀ (ms : DMembers) (n : String), n ∈ selNames ms → n ∈ ms.names
  | .nil, n, h => by simp [selNames] at h
  | .cons name version condition t rest, n, h => by
    cases t <;> simp only [selNames, List.mem_cons] at h <;> simp only [DMembers.names, List.mem_cons] <;>
      first
      | exact Or.inr (selNames_names rest n h)
      | exact h.imp id (selNames_names rest n)

/-! ### Classes one after the other -/

theorem writeParts_snoc {ctx : DCtx} : ∀ {mss : List DMembers} {parts : List Fields} {b b' : Bytes} {ms : DMembers} {fs : Fields},
    writeParts ctx mss parts = some b → writeMembers ctx ms [] fs = some b' →
    writeParts ctx (mss ++ [ms]) (parts ++ [fs]) = some (b ++ b')
  | [], [], b, b', ms, fs, h, h' => by
    simp [writeParts] at h
    subst h
    simp [writeParts, h']
  | m :: mss, p :: ps, b, b', ms, fs, h, h' => by
    simp only [writeParts, Option.bind_eq_bind, Option.bind_eq_some_iff, Option.pure_def] at h
    obtain ⟨b1, h1, b2, h2, h3⟩ := h
    injection h3 with h3
    simp only [List.cons_append, writeParts, h1, writeParts_snoc h2 h', Option.bind_eq_bind, Option.bind_some, Option.pure_def, ← h3]
    simp
  | [], _ :: _, _, _, _, _, h, _ => by simp [writeParts] at h
  | _ :: _, [], _, _, _, _, h, _ => by simp [writeParts] at h

theorem setField_nodup (k : String) (x : Value PVal) : ∀ (fs : Fields), (fs.map (·.1)).Nodup → ((setField k x fs).map (·.1)).Nodup
  | [], _ => by simp [setField]
  | (n, v) :: fs, h => by
    simp only [List.map_cons, List.nodup_cons] at h
    simp only [setField]
    split
    · rename_i e
      simp only [List.map_cons, List.nodup_cons]
      subst e
      exact h
    · rename_i e
      simp only [List.map_cons, List.nodup_cons]
      refine ⟨?_, setField_nodup k x fs h.2⟩
      intro hm
      rcases setField_names k x fs n hm with rfl | hm
      · exact e rfl
      · exact h.1 hm

theorem read_nodup (fe : PyErr) (ctx : DCtx) : ∀ (ms : DMembers) (acc fs : Fields) (s r : Bytes),
    readMembers fe ctx.version ctx ms.toMembers acc s = .ok (fs, r) → (acc.map (·.1)).Nodup → (fs.map (·.1)).Nodup
  | .nil, acc, fs, s, r, h, hn => by
    simp only [DMembers.toMembers, readMembers, Except.ok.injEq, Prod.mk.injEq] at h
    rw [← h.1]
    exact hn
  | .cons name version condition t rest, acc, fs, s, r, h, hn => by
    rw [read_cons] at h
    split at h
    · cases h
    · exact read_nodup fe ctx rest _ fs _ r h hn
    · split at h
      · cases h
      · exact read_nodup fe ctx rest _ fs _ r h hn
      · exact read_nodup fe ctx rest _ fs _ r h (setField_nodup _ _ _ hn)

theorem contentUpdate_names : ∀ (more content : Fields) (n : String), n ∈ (contentUpdate content more).map (·.1) →
    n ∈ content.map (·.1) ∨ n ∈ more.map (·.1)
  | [], content, n, h => Or.inl h
  | p :: more, content, n, h => by
    simp only [contentUpdate, List.foldl_cons] at h
    rcases contentUpdate_names more _ n h with h | h
    · rcases setField_names _ _ _ _ h with h | h
      · right; simp [h]
      · exact Or.inl h
    · right; simp only [List.map_cons, List.mem_cons]; exact Or.inr h

theorem contentUpdate_nodup : ∀ (more content : Fields), (content.map (·.1)).Nodup →
    ((contentUpdate content more).map (·.1)).Nodup
  | [], content, h => h
  | p :: more, content, h => by
    simp only [contentUpdate, List.foldl_cons]
    exact contentUpdate_nodup more _ (setField_nodup _ _ _ h)

theorem reads_names {ver : Version} {parent : Option (String × Fields)} {cs : List String} {s r : Bytes} {content : Fields}
    (h : Reads (directRead ver parent) contentUpdate cs s content r) :
    (content.map (·.1)).Nodup ∧ ∀ n ∈ content.map (·.1), ∃ c ∈ cs, n ∈ (membersOf c).names := by
  induction h with
  | @one c s v r h =>
    exact ⟨read_nodup _ ⟨some ver, some parent⟩ _ _ _ _ _ h (by simp), fun n hn => ⟨c, by simp, (directRead_ok h).2 n hn⟩⟩
  | @snoc cs c s v w r r' h1 h2 ih =>
    refine ⟨contentUpdate_nodup _ _ ih.1, ?_⟩
    intro n hn
    rcases contentUpdate_names w v n hn with h | h
    · obtain ⟨c', hc', h⟩ := ih.2 n h
      exact ⟨c', by simp [hc'], h⟩
    · exact ⟨c, by simp, (directRead_ok h2).2 n h⟩

theorem partOf_append (a b : Fields) (c : String) : partOf (a ++ b) c = partOf a c ++ partOf b c := by
  simp [partOf]

theorem partOf_all {a : Fields} {c : String} (h : ∀ n ∈ a.map (·.1), n ∈ (membersOf c).names) : partOf a c = a := by
  unfold partOf
  rw [List.filter_eq_self.2]
  intro p hp
  simpa using h p.1 (List.mem_map_of_mem hp)

theorem partOf_none {a : Fields} {c : String} (h : ∀ n ∈ a.map (·.1), n ∉ (membersOf c).names) : partOf a c = [] := by
  unfold partOf
  rw [List.filter_eq_nil_iff]
  intro p hp
  simpa using h p.1 (List.mem_map_of_mem hp)

theorem reads_write {ver : Version} {parent : Option (String × Fields)} {cs : List String} {s r : Bytes} {content : Fields}
    (h : Reads (directRead ver parent) contentUpdate cs s content r)
    (hs : ∀ c ∈ cs, ∀ n ∈ selNames (membersOf c), n ∈ content.map (·.1))
    (hn : (cs.flatMap fun c => (membersOf c).names).Nodup)
    (hf : Follows (cs.all fun c => fixedMembers (membersOf c)) r) :
    ∃ b, content = (cs.map (partOf content)).flatten ∧
      writeParts ⟨some ver, some parent⟩ (cs.map membersOf) (cs.map (partOf content)) = some b ∧ s = b ++ r := by
  induction h with
  | @one c s v r h =>
    have hnames := (directRead_ok h).2
    obtain ⟨b, h1, h2⟩ := class_read_write h (hs c (by simp)) (hf.weaken (by simp))
    refine ⟨b, by simp [partOf_all hnames], by simp [writeParts, partOf_all hnames, h1], h2⟩
  | @snoc cs c s v w r r' h1 h2 ih =>
    rw [List.flatMap_append, List.nodup_append] at hn
    obtain ⟨hn1, hn2, hn3⟩ := hn
    simp only [List.flatMap_cons, List.flatMap_nil, List.append_nil] at hn2 hn3
    have hwn := (directRead_ok h2).2
    obtain ⟨u, hu⟩ := directRead_consumes ver parent c r w r' h2
    obtain ⟨hvd, hvn⟩ := reads_names h1
    have hwd := read_nodup _ ⟨some ver, some parent⟩ _ _ _ _ _ h2 (by simp)
    have hcn : ∀ n ∈ (membersOf c).names, ∀ c' ∈ cs, n ∉ (membersOf c').names := by
      intro n h3 c' hc' h4
      exact hn3 n (List.mem_flatMap.2 ⟨c', hc', h4⟩) n h3 rfl
    have hdisj : ∀ n ∈ v.map (·.1), n ∉ w.map (·.1) := by
      intro n h3 h4
      obtain ⟨c', hc', h5⟩ := hvn n h3
      exact hcn n (hwn n h4) c' hc' h5
    have hup : contentUpdate v w = v ++ w := by
      apply contentUpdate_new
      rw [List.map_append, List.nodup_append]
      exact ⟨hvd, hwd, fun a ha b hb e => hdisj a ha (e ▸ hb)⟩
    rw [hup] at hs ⊢
    have hpv : partOf (v ++ w) c = w := by
      rw [partOf_append, partOf_all hwn, partOf_none, List.nil_append]
      intro n h3 h4
      obtain ⟨c', hc', h5⟩ := hvn n h3
      exact hcn n h4 c' hc' h5
    have hpw : ∀ c' ∈ cs, partOf (v ++ w) c' = partOf v c' := by
      intro c' hc'
      rw [partOf_append, partOf_none (a := w), List.append_nil]
      intro n h3 h4
      exact hcn n (hwn n h3) c' hc' h4
    obtain ⟨b, h3, h4, h5⟩ := ih (by
      intro c' hc' n h3
      have := hs c' (by simp [hc']) n h3
      rw [List.map_append, List.mem_append] at this
      rcases this with h | h
      · exact h
      · exact absurd (selNames_names _ n h3) (hcn n (hwn n h) c' hc')) hn1
      ((hf.before hu).weaken (by simp only [List.all_append, Bool.and_eq_true]; exact And.left))
    obtain ⟨b', h6, h7⟩ := class_read_write h2 (by
      intro n h3
      have := hs c (by simp) n h3
      rw [List.map_append, List.mem_append] at this
      rcases this with h | h
      · obtain ⟨c', hc', h5⟩ := hvn n h
        exact absurd h5 (hcn n (selNames_names _ n h3) c' hc')
      · exact h) (hf.weaken (by simp only [List.all_append, Bool.and_eq_true]; simp))
    have hmap : (cs ++ [c]).map (partOf (v ++ w)) = cs.map (partOf v) ++ [w] := by
      rw [List.map_append, List.map_congr_left hpw]
      simp [hpv]
    refine ⟨b ++ b', ?_, ?_, by rw [h5, h7, List.append_assoc]⟩
    · rw [hmap, List.flatten_append, ← h3]
      simp
    · rw [hmap, List.map_append]
      exact writeParts_snoc h4 h6

theorem reads_more {ver : Version} {parent : Option (String × Fields)} : ∀ (cs : List String) (parts : List Fields) (b r s : Bytes)
    (pre : List String) (v : Fields), Reads (directRead ver parent) contentUpdate pre s v (b ++ r) →
    writeParts ⟨some ver, some parent⟩ (cs.map membersOf) parts = some b →
    ((pre ++ cs).flatMap fun c => (membersOf c).names).Nodup →
    Reads (directRead ver parent) contentUpdate (pre ++ cs) s (v ++ parts.flatten) r
  | [], [], b, r, s, pre, v, h, hw, hn => by
    simp [writeParts] at hw
    subst hw
    simpa using h
  | c :: cs, p :: ps, b, r, s, pre, v, h, hw, hn => by
    simp only [List.map_cons, writeParts, Option.bind_eq_bind, Option.bind_eq_some_iff, Option.pure_def] at hw
    obtain ⟨b1, h1, b2, h2, h3⟩ := hw
    injection h3 with h3
    subst h3
    rw [List.append_assoc] at h
    have hr := class_write_read (b2 ++ r) h1
    have hpn := written_names h1
    obtain ⟨hvd, hvn⟩ := reads_names h
    have hpd := read_nodup _ ⟨some ver, some parent⟩ _ _ _ _ _ hr (by simp)
    have hs := Reads.snoc h hr
    have hup : contentUpdate v p = v ++ p := by
      apply contentUpdate_new
      rw [List.map_append, List.nodup_append]
      refine ⟨hvd, hpd, ?_⟩
      rintro a ha b hb rfl
      obtain ⟨c', hc', h5⟩ := hvn a ha
      rw [List.flatMap_append, List.nodup_append] at hn
      exact hn.2.2 a (List.mem_flatMap.2 ⟨c', hc', h5⟩) a (List.mem_flatMap.2 ⟨c, by simp, hpn a hb⟩) rfl
    rw [hup] at hs
    have := reads_more cs ps b2 r s (pre ++ [c]) (v ++ p) hs h2 (by simpa using hn)
    simpa using this
  | [], _ :: _, _, _, _, _, _, _, h, _ => by simp [writeParts] at h
  | _ :: _, [], _, _, _, _, _, _, h, _ => by simp [writeParts] at h

theorem writeParts_reads {ver : Version} {parent : Option (String × Fields)} (cs : List String) (parts : List Fields) (b r : Bytes)
    (hc : cs ≠ []) (h : writeParts ⟨some ver, some parent⟩ (cs.map membersOf) parts = some b)
    (hn : (cs.flatMap fun c => (membersOf c).names).Nodup) :
    Reads (directRead ver parent) contentUpdate cs (b ++ r) parts.flatten r := by
  cases cs with
  | nil => exact absurd rfl hc
  | cons c cs =>
    cases parts with
    | nil => simp [writeParts] at h
    | cons p ps =>
      simp only [List.map_cons, writeParts, Option.bind_eq_bind, Option.bind_eq_some_iff, Option.pure_def] at h
      obtain ⟨b1, h1, b2, h2, h3⟩ := h
      injection h3 with h3
      subst h3
      rw [List.append_assoc]
      have hr := class_write_read (b2 ++ r) h1
      have := reads_more cs ps b2 r _ [c] p (.one hr) h2 (by simpa using hn)
      simpa using this

theorem reads_det {κ} {read : String → Bytes → Except PyErr (κ × Bytes)} {update : κ → κ → κ} {cs : List String} {s r : Bytes} {v : κ}
    (h : Reads read update cs s v r) : ∀ {v' r'}, Reads read update cs s v' r' → v = v' ∧ r = r' := by
  induction h with
  | @one c s v r h =>
    intro v' r' h'
    have := reads_one h'
    rw [h] at this
    simpa using this
  | @snoc cs c s v w r r' h1 h2 ih =>
    intro v' r'' h'
    generalize hcs : cs ++ [c] = cs' at h'
    cases h' with
    | @one c' _ _ _ h3 =>
      exact absurd hcs (by have := reads_ne h1; cases cs <;> simp_all)
    | @snoc cs' c' _ v1 w1 r1 r2 h3 h4 =>
      obtain ⟨e1, e2⟩ := List.append_inj' hcs rfl
      subst e1
      obtain ⟨rfl, rfl⟩ := ih h3
      simp only [List.cons.injEq, and_true] at e2
      subst e2
      rw [h2] at h4
      simp only [Except.ok.injEq, Prod.mk.injEq] at h4
      exact ⟨by rw [h4.1], h4.2⟩

end Hwp
