/- The command `hwp5proc records`. -/
import Verif.Model.Commands
import Verif.Spec.Commands
import Verif.Proofs.Filestructure
import Verif.Proofs.XmlText
import Verif.Props.Records
import Verif.Props.Grouping
set_option linter.unusedSimpArgs false
set_option linter.unusedVariables false
namespace Hwp
open Spec

/-! ### Integers -/

theorem intDigits_numeral {s : PyStr} {n : Nat} (h : Numeral s n) :
    ∀ rest, intDigits 0 false (s ++ rest) = intDigits n true rest := by
  induction h with
  | digit d hd =>
    intro rest
    simp only [List.cons_append, List.nil_append]
    rw [intDigits, digitValue_digit d hd]; simp
  | more s n d _ hd ih =>
    intro rest
    rw [List.append_assoc, ih]
    simp only [List.cons_append, List.nil_append]
    rw [intDigits, digitValue_digit d hd, Nat.mul_comm]
  | underscore s n d _ hd ih =>
    intro rest
    rw [List.append_assoc, ih]
    simp only [List.cons_append, List.nil_append]
    have h5 : digitValue 0x5f = none := by decide
    rw [intDigits, h5]
    dsimp only
    rw [if_pos ⟨rfl, rfl⟩, intDigits, digitValue_digit d hd, Nat.mul_comm]

theorem digitValue_some {c d : Nat} (h : digitValue c = some d) : d < 10 ∧ c = 0x30 + d := by
  unfold digitValue at h
  split at h
  · injection h with h; omega
  · cases h

theorem intDigits_sound (cs : PyStr) : ∀ (n : Nat),
    (∀ p acc, Numeral p acc → intDigits acc true cs = some n → Numeral (p ++ cs) n) ∧
    (∀ p acc, Numeral p acc → intDigits acc false cs = some n → Numeral (p ++ 0x5f :: cs) n) ∧
    (intDigits 0 false cs = some n → Numeral cs n) := by
  induction cs with
  | nil =>
    intro n
    refine ⟨?_, ?_, ?_⟩
    · intro p acc hp h
      simp only [intDigits, if_true, Option.some.injEq] at h
      subst h; simpa using hp
    · intro p acc hp h
      simp [intDigits] at h
    · intro h
      simp [intDigits] at h
  | cons c cs ih =>
    intro n
    obtain ⟨i1, i2, i3⟩ := ih n
    refine ⟨?_, ?_, ?_⟩
    · intro p acc hp h
      rw [intDigits] at h
      split at h
      · rename_i d hd
        obtain ⟨hd', rfl⟩ := digitValue_some hd
        have := i1 _ _ (.more p acc d hp hd') (by rw [Nat.mul_comm] at h; exact h)
        simpa using this
      · split at h
        · rename_i hc
          obtain ⟨rfl, -⟩ := hc
          exact i2 _ _ hp h
        · cases h
    · intro p acc hp h
      rw [intDigits] at h
      split at h
      · rename_i d hd
        obtain ⟨hd', rfl⟩ := digitValue_some hd
        have := i1 _ _ (.underscore p acc d hp hd') (by rw [Nat.mul_comm] at h; exact h)
        simpa using this
      · simp at h
    · intro h
      rw [intDigits] at h
      split at h
      · rename_i d hd
        obtain ⟨hd', rfl⟩ := digitValue_some hd
        have := i1 _ _ (.digit d hd') (by simpa using h)
        simpa using this
      · simp at h

theorem intDigits_iff (s : PyStr) (n : Nat) : intDigits 0 false s = some n ↔ Numeral s n := by
  constructor
  · exact (intDigits_sound s n).2.2
  · intro h
    have := intDigits_numeral h []
    rw [List.append_nil] at this
    rw [this]; rfl

theorem numeral_head {s : PyStr} {n : Nat} (h : Numeral s n) : ∃ d t, d < 10 ∧ s = (0x30 + d) :: t := by
  induction h with
  | digit d hd => exact ⟨d, [], hd, rfl⟩
  | more s n d _ _ ih => obtain ⟨e, t, he, rfl⟩ := ih; exact ⟨e, _, he, rfl⟩
  | underscore s n d _ _ ih => obtain ⟨e, t, he, rfl⟩ := ih; exact ⟨e, _, he, rfl⟩

theorem numeral_last {s : PyStr} {n : Nat} (h : Numeral s n) : ∃ d t, d < 10 ∧ s = t ++ [0x30 + d] := by
  cases h with
  | digit _ hd => exact ⟨_, [], hd, rfl⟩
  | more s n d _ hd => exact ⟨d, s, hd, rfl⟩
  | underscore s n d _ hd => exact ⟨d, s ++ [0x5f], hd, by simp⟩

theorem intSigned_iff (s : PyStr) (n : Int) : intSigned s = some n ↔ Signed s n := by
  constructor
  · intro h
    unfold intSigned at h
    split at h
    · cases hd : intDigits 0 false _ with
      | none => rw [hd] at h; cases h
      | some k =>
        rw [hd] at h; simp at h; subst h
        exact .plus _ _ ((intDigits_iff _ _).1 hd)
    · cases hd : intDigits 0 false _ with
      | none => rw [hd] at h; cases h
      | some k =>
        rw [hd] at h; simp at h; subst h
        exact .minus _ _ ((intDigits_iff _ _).1 hd)
    · cases hd : intDigits 0 false _ with
      | none => rw [hd] at h; cases h
      | some k =>
        rw [hd] at h; simp at h; subst h
        exact .none _ _ ((intDigits_iff _ _).1 hd)
  · intro h
    cases h with
    | none s k hk =>
      obtain ⟨d, t, hd, rfl⟩ := numeral_head hk
      rw [intSigned, (intDigits_iff _ _).2 hk]
      · rfl
      · intro x e; simp only [List.cons.injEq] at e; omega
      · intro x e; simp only [List.cons.injEq] at e; omega
    | plus s k hk => rw [intSigned, (intDigits_iff _ _).2 hk]; rfl
    | minus s k hk => rw [intSigned, (intDigits_iff _ _).2 hk]; rfl

theorem asciiSpace_iff (c : Nat) : asciiSpace c = true ↔ c ∈ [0x20, 0x09, 0x0a, 0x0b, 0x0c, 0x0d] := by
  simp only [asciiSpace, decide_eq_true_eq, List.mem_cons, List.not_mem_nil, or_false]
  omega

theorem signed_head {s : PyStr} {n : Int} (h : Signed s n) : ∃ c t, s = c :: t ∧ asciiSpace c = false := by
  cases h with
  | none s k hk =>
    obtain ⟨d, t, hd, rfl⟩ := numeral_head hk
    refine ⟨_, _, rfl, ?_⟩
    simp only [asciiSpace, decide_eq_false_iff_not]; omega
  | plus s k hk => exact ⟨_, _, rfl, by decide⟩
  | minus s k hk => exact ⟨_, _, rfl, by decide⟩

theorem signed_last {s : PyStr} {n : Int} (h : Signed s n) : ∃ c t, s = t ++ [c] ∧ asciiSpace c = false := by
  have key : ∀ d, d < 10 → asciiSpace (0x30 + d) = false := by
    intro d hd
    simp only [asciiSpace, decide_eq_false_iff_not]; omega
  cases h with
  | none s k hk =>
    obtain ⟨d, t, hd, rfl⟩ := numeral_last hk
    exact ⟨_, t, rfl, key d hd⟩
  | plus s k hk =>
    obtain ⟨d, t, hd, rfl⟩ := numeral_last hk
    exact ⟨_, 0x2b :: t, rfl, key d hd⟩
  | minus s k hk =>
    obtain ⟨d, t, hd, rfl⟩ := numeral_last hk
    exact ⟨_, 0x2d :: t, rfl, key d hd⟩

theorem dropWhile_blank (l : PyStr) (c : Nat) (t : PyStr) (hl : ∀ x ∈ l, asciiSpace x = true)
    (hc : asciiSpace c = false) : (l ++ c :: t).dropWhile asciiSpace = c :: t := by
  induction l with
  | nil => simp [List.dropWhile_cons, hc]
  | cons x l ih =>
    rw [List.cons_append, List.dropWhile_cons, hl x (by simp)]
    simp only [if_true]
    exact ih fun y hy => hl y (by simp [hy])

theorem pyInt_iff (s : PyStr) (n : Int) : pyInt s = some n ↔ IntText s n := by
  constructor
  · intro h
    unfold pyInt at h
    have h1 := (intSigned_iff _ _).1 h
    refine ⟨s.takeWhile asciiSpace, _,
      ((s.dropWhile asciiSpace).reverse.takeWhile asciiSpace).reverse, ?_, ?_, ?_, h1⟩
    · rw [List.append_assoc, ← List.reverse_append, List.takeWhile_append_dropWhile, List.reverse_reverse,
        List.takeWhile_append_dropWhile]
    · intro c hc
      exact (asciiSpace_iff c).1 (List.all_eq_true.1 (List.all_takeWhile (l := s)) c hc)
    · intro c hc
      rw [List.mem_reverse] at hc
      exact (asciiSpace_iff c).1 (List.all_eq_true.1 (List.all_takeWhile (l := (s.dropWhile asciiSpace).reverse)) c hc)
  · rintro ⟨l, t, r, rfl, hl, hr, ht⟩
    have hl' : ∀ c ∈ l, asciiSpace c = true := fun c hc => (asciiSpace_iff c).2 (hl c hc)
    have hr' : ∀ c ∈ r.reverse, asciiSpace c = true := fun c hc =>
      (asciiSpace_iff c).2 (hr c (List.mem_reverse.1 hc))
    obtain ⟨c, u, e1, hc⟩ := signed_head ht
    obtain ⟨c', u', e2, hc'⟩ := signed_last ht
    unfold pyInt
    have a1 : (l ++ t ++ r).dropWhile asciiSpace = t ++ r := by
      rw [e1, List.append_assoc, List.cons_append]
      exact dropWhile_blank l c (u ++ r) hl' hc
    have a2 : (t ++ r).reverse.dropWhile asciiSpace = t.reverse := by
      rw [List.reverse_append, e2, List.reverse_append]
      exact dropWhile_blank r.reverse c' u'.reverse hr' hc'
    rw [a1, a2, List.reverse_reverse]
    exact (intSigned_iff _ _).2 ht

theorem intText_unique {s : PyStr} {n m : Int} (h : IntText s n) (h' : IntText s m) : n = m := by
  rw [← pyInt_iff] at h h'
  rw [h] at h'; injection h'

/-! ### Ranges -/

theorem splitDash_none {s : PyStr} (h : 0x2d ∉ s) : splitDash s = [s] := by
  have : s.dropWhile (· != 0x2d) = [] := by
    have := List.dropWhile_append_of_pos (p := (· != 0x2d)) (l₁ := s) (l₂ := []) (by
      intro c hc
      simp only [bne_iff_ne]; rintro rfl; exact h hc)
    simpa using this
  simp [splitDash, this]

theorem splitDash_some {x : PyStr} (y : PyStr) (h : 0x2d ∉ x) : splitDash (x ++ 0x2d :: y) = [x, y] := by
  have hx : ∀ c ∈ x, (c != 0x2d) = true := by
    intro c hc
    simp only [bne_iff_ne]; rintro rfl; exact h hc
  have h1 : (x ++ 0x2d :: y).dropWhile (· != 0x2d) = 0x2d :: y := by
    rw [List.dropWhile_append_of_pos hx]; rfl
  have h2 : (x ++ 0x2d :: y).takeWhile (· != 0x2d) = x := by
    rw [List.takeWhile_append_of_pos hx]; simp
  simp [splitDash, h1, h2]

theorem intArg_ok {s : PyStr} {n : Int} : intArg s = .ok n ↔ IntText s n := by
  rw [← pyInt_iff]
  unfold intArg
  cases pyInt s <;> simp

theorem intArg_err {s : PyStr} (h : ¬ ∃ n, IntText s n) : intArg s = .error .valueError := by
  unfold intArg
  cases hp : pyInt s with
  | none => rfl
  | some n => exact absurd ⟨n, (pyInt_iff s n).1 hp⟩ h

theorem intText_nil (n : Int) : ¬ IntText [] n := by
  rw [← pyInt_iff]
  have : pyInt [] = none := by decide
  rw [this]; simp

theorem rangeText_ne {s : PyStr} {a b : Int} (h : RangeText s a b) : s ≠ [] := by
  cases h with
  | one _ _ h1 h2 => rintro rfl; exact intText_nil _ h2
  | span x y n m h1 h2 h3 => simp

theorem dash_split (s : PyStr) : 0x2d ∉ s ∨ ∃ x y, s = x ++ 0x2d :: y ∧ 0x2d ∉ x := by
  induction s with
  | nil => exact .inl (by simp)
  | cons c s ih =>
    by_cases hc : c = 0x2d
    · subst hc; exact .inr ⟨[], s, rfl, by simp⟩
    · rcases ih with ih | ⟨x, y, rfl, hx⟩
      · left; simp only [List.mem_cons, not_or]; exact ⟨fun e => hc e.symm, ih⟩
      · right; exact ⟨c :: x, y, rfl, by simp only [List.mem_cons, not_or]; exact ⟨fun e => hc e.symm, hx⟩⟩

theorem parseRange_cons (c : Nat) (t : PyStr) : parseRange (some (c :: t)) = (do
    let ns ← (splitDash (c :: t)).mapM intArg
    match ns with
    | [n] => return some (n, n + 1)
    | n :: m :: _ => return some (n, m)
    | [] => .error .indexError) := rfl

theorem parseRange_ok {s : PyStr} {a b : Int} (h : RangeText s a b) :
    parseRange (some s) = .ok (some (a, b)) := by
  have hne := rangeText_ne h
  obtain ⟨c, t, rfl⟩ := List.exists_cons_of_ne_nil hne
  rw [parseRange_cons]
  generalize c :: t = s at h
  cases h with
  | one _ _ h1 h2 =>
    rw [splitDash_none h1]
    simp [List.mapM_cons, intArg_ok.2 h2, bind, Except.bind, pure, Except.pure]
  | span x y n m h1 h2 h3 =>
    rw [splitDash_some y h1]
    simp [List.mapM_cons, intArg_ok.2 h2, intArg_ok.2 h3, bind, Except.bind, pure, Except.pure]

theorem parseRange_err {s : PyStr} (hs : s ≠ []) (h : ¬ ∃ a b, RangeText s a b) :
    parseRange (some s) = .error .valueError := by
  obtain ⟨c, t, rfl⟩ := List.exists_cons_of_ne_nil hs
  rw [parseRange_cons]
  generalize c :: t = s at h
  rcases dash_split s with h1 | ⟨x, y, rfl, h1⟩
  · rw [splitDash_none h1]
    have : intArg s = .error .valueError := intArg_err fun ⟨n, hn⟩ => h ⟨_, _, .one _ _ h1 hn⟩
    simp [List.mapM_cons, this, bind, Except.bind, pure, Except.pure]
  · rw [splitDash_some y h1]
    by_cases hx : ∃ n, IntText x n
    · obtain ⟨n, hn⟩ := hx
      have : intArg y = .error .valueError := intArg_err fun ⟨m, hm⟩ => h ⟨_, _, .span _ _ _ _ h1 hn hm⟩
      simp [List.mapM_cons, intArg_ok.2 hn, this, bind, Except.bind, pure, Except.pure]
    · simp [List.mapM_cons, intArg_err hx, bind, Except.bind, pure, Except.pure]

theorem rangeText_unique {s : PyStr} {a b a' b' : Int} (h : RangeText s a b) (h' : RangeText s a' b') :
    a = a' ∧ b = b' := by
  have h1 := parseRange_ok h
  rw [parseRange_ok h'] at h1
  simpa [eq_comm] using h1

theorem isliceArg_nat {n : Nat} (h : n ≤ sysMaxsize) : isliceArg n = .ok n := by
  unfold isliceArg
  rw [if_pos ⟨Int.natCast_nonneg n, h⟩]; rfl

theorem isliceArg_err {n : Int} (h : ¬ ∃ m : Nat, n = m ∧ m ≤ sysMaxsize) : isliceArg n = .error .valueError := by
  unfold isliceArg
  rw [if_neg]
  rintro ⟨h1, h2⟩
  exact h ⟨n.toNat, (Int.toNat_of_nonneg h1).symm, h2⟩

/-! ### Output -/

theorem writeEach_ok {α β} (f : α → Except PyErr (List β)) (k : α → List β) (err : Option PyErr) (rs : List α)
    (h : ∀ r ∈ rs, f r = .ok (k r)) : writeEach f err rs = ⟨(rs.map k).flatten, err⟩ := by
  induction rs with
  | nil => rfl
  | cons r rs ih =>
    rw [writeEach, h r (by simp), ih fun x hx => h x (by simp [hx])]
    rfl

theorem groupByTop_mem (g : Gen Record) : ∀ rs ∈ (groupByTop g).out, ∀ r ∈ rs, r ∈ g.out := by
  obtain ⟨out, err⟩ := g
  obtain ⟨gs, h1, h2, -⟩ := Props.C05_groups_partition out
  intro rs hrs r hr
  rw [← h2]
  cases err with
  | none =>
    have e : groupByTop ⟨out, none⟩ = ⟨gs, none⟩ := h1
    rw [e] at hrs
    exact List.mem_flatten.2 ⟨rs, hrs, hr⟩
  | some e =>
    rw [Props.C05_groups_failing_source, h1] at hrs
    exact List.mem_flatten.2 ⟨rs, List.dropLast_subset _ hrs, hr⟩

/-- Selected records are records of the stream. -/
theorem selectRecords_mem (range tg : Option PyStr) (s : Bytes) :
    ∀ r ∈ (selectRecords range tg s).out, r ∈ (readRecords s).out := by
  intro r hr
  unfold selectRecords at hr
  simp only [bind, Except.bind, pure, Except.pure] at hr
  split at hr
  · simp [Gen.raise] at hr
  · rename_i g hg
    split at hg
    · cases hg
    · split at hg
      · cases hg
      · split at hg
        · split at hg
          · cases hg
          · split at hg
            · cases hg
            · injection hg with hg; subst hg
              simp only [recordsRange, islice] at hr
              exact List.mem_of_mem_take (List.mem_of_mem_drop hr)
        · split at hg
          · cases hg
          · split at hg
            · cases hg
            · rename_i v hv
              split at hg
              · cases hg
              · rename_i rs
                injection hg with hg; subst hg
                simp only [Gen.ofList] at hr
                unfold recordsTreegroup nth at hv
                split at hv
                · rename_i g hg
                  injection hv with hv; injection hv with hv; subst hv
                  have hm : g ∈ (groupByTop (readRecords s)).out := List.mem_of_getElem? hg
                  exact groupByTop_mem _ g hm r hr
                · split at hv <;> cases hv
        · injection hg with hg; subst hg; exact hr

/-! ### Names and lines -/

theorem sourceTagnames_eq : sourceTagnames = tagnames := by decide +kernel

theorem tagnames_lookup_mem {α} (l : List (Nat × α)) (t : Nat) (n : α) (h : l.lookup t = some n) : (t, n) ∈ l := by
  induction l with
  | nil => simp at h
  | cons x l ih =>
    obtain ⟨k, v⟩ := x
    rw [List.lookup_cons] at h
    by_cases hk : t = k
    · subst hk
      simp at h; simp [h]
    · have : (t == k) = false := by simp [hk]
      rw [this] at h
      exact List.mem_cons_of_mem _ (ih h)

theorem lookup_none {α} (l : List (Nat × α)) (t : Nat) (h : l.lookup t = none) : ∀ n, (t, n) ∉ l := by
  induction l with
  | nil => simp
  | cons x l ih =>
    obtain ⟨k, v⟩ := x
    rw [List.lookup_cons] at h
    by_cases hk : t = k
    · subst hk; simp at h
    · have e : (t == k) = false := by simp [hk]
      rw [e] at h
      intro n hn
      rcases List.mem_cons.1 hn with hn | hn
      · injection hn with h1; exact hk h1
      · exact ih h n hn

theorem tagname_iff (t : Nat) (n : PyStr) : TagName t n ↔ n = tagname t := by
  have hn : (tagnames.map Prod.fst).Nodup := by decide +kernel
  have uniq : ∀ {t : Nat} {a b : String}, (t, a) ∈ tagnames → (t, b) ∈ tagnames → a = b := by
    have key : ∀ (l : List (Nat × String)), (l.map Prod.fst).Nodup → ∀ {t a b}, (t, a) ∈ l → (t, b) ∈ l → a = b := by
      intro l
      induction l with
      | nil => intro _ t a b ha; simp at ha
      | cons x l ih =>
        intro hn t a b ha hb
        rw [List.map_cons, List.nodup_cons] at hn
        rcases List.mem_cons.1 ha with ha' | ha' <;> rcases List.mem_cons.1 hb with hb' | hb'
        · rw [← ha'] at hb'; injection hb' with _ h; exact h.symm
        · exact (hn.1 (List.mem_map.2 ⟨_, hb', by rw [← ha']⟩)).elim
        · exact (hn.1 (List.mem_map.2 ⟨_, ha', by rw [← hb']⟩)).elim
        · exact ih hn.2 ha' hb'
    intro t a b; exact key _ hn
  constructor
  · intro h
    unfold tagname
    cases hl : tagnames.lookup t with
    | some m =>
      have hm := tagnames_lookup_mem _ _ _ hl
      cases h with
      | known k hk =>
        rw [sourceTagnames_eq] at hk
        rw [uniq hk hm]
      | unknown hk => rw [sourceTagnames_eq] at hk; exact absurd hm (hk m)
    | none =>
      cases h with
      | known k hk => rw [sourceTagnames_eq] at hk; exact absurd hk (lookup_none _ _ hl k)
      | unknown hk => dsimp only; rw [intStr_eq]
  · rintro rfl
    unfold tagname
    cases hl : tagnames.lookup t with
    | some m => exact .known _ _ (by rw [sourceTagnames_eq]; exact tagnames_lookup_mem _ _ _ hl)
    | none =>
      dsimp only
      rw [intStr_eq]
      exact .unknown _ (by rw [sourceTagnames_eq]; exact lookup_none _ _ hl)

theorem natStr_decDigits (n : Nat) : natStr n = decDigits n := by
  induction n using Nat.strongRecOn with
  | ind n ih =>
    rw [natStr, decDigits]
    split
    · rfl
    · rw [ih (n / 10) (by omega)]

theorem intStr_decimal (n : Int) : intStr n = Hwp.decimal n := by
  unfold intStr
  cases n with
  | ofNat m => rw [if_neg (by simp)]; exact natStr_decDigits m
  | negSucc m => rw [if_pos (by omega)]; exact congrArg _ (natStr_decDigits _)

theorem intStr_inj {a b : Int} (h : intStr a = intStr b) : a = b := by
  have h1 := pyInt_decimal a
  rw [← intStr_decimal, h, intStr_decimal, pyInt_decimal] at h1
  injection h1 with h1; exact h1.symm

/-- The seventh character of a name in the table is an underscore. -/
theorem tagnames_shape : ∀ x ∈ tagnames, (lit x.2).take 7 = lit "HWPTAG_" := by decide +kernel

theorem intStr_first (n : Int) : ∃ c t, intStr n = c :: t ∧ c ≠ 0x5f ∧ c ≠ 0x0a ∧ c ≠ 0x20 := by
  rw [intStr_decimal]
  cases n with
  | ofNat m =>
    obtain ⟨c, t, e⟩ := List.exists_cons_of_ne_nil (decDigits_ne m)
    have := decDigits_mem m c (by rw [e]; simp)
    exact ⟨c, t, e, by omega, by omega, by omega⟩
  | negSucc m => exact ⟨0x2d, _, rfl, by decide, by decide, by decide⟩

theorem tagname_inj {a b : Nat} (h : tagname a = tagname b) : a = b := by
  have mixed : ∀ {a b : Nat} {x : String}, tagnames.lookup a = some x → tagnames.lookup b = none →
      tagname a ≠ tagname b := by
    intro a b x ha hb e
    have h1 := tagnames_shape _ (tagnames_lookup_mem _ _ _ ha)
    unfold tagname at e
    rw [ha, hb] at e
    dsimp only at e h1
    rw [e] at h1
    obtain ⟨c, t, hc, h5, -⟩ := intStr_first ((b : Int) - 16)
    rw [hc] at h1
    have h2 : lit "HWPTAG" ++ c :: t = lit "HWPTAG" ++ [c] ++ t := by simp
    have hl : (lit "HWPTAG").length = 6 := by decide
    rw [h2, List.take_append_of_le_length (by rw [List.length_append, hl]; exact Nat.le_refl _)] at h1
    have h3 : lit "HWPTAG_" = lit "HWPTAG" ++ [0x5f] := by decide +kernel
    have h4 : (lit "HWPTAG" ++ [c]).take 7 = lit "HWPTAG" ++ [c] := List.take_of_length_le (by rw [List.length_append, hl]; exact Nat.le_refl _)
    rw [h3, h4] at h1
    have := List.append_cancel_left h1
    simp at this
    exact h5 this
  cases ha : tagnames.lookup a with
  | some x =>
    cases hb : tagnames.lookup b with
    | some y =>
      have e : lit x = lit y := by unfold tagname at h; rw [ha, hb] at h; exact h
      have key : ∀ p ∈ tagnames, ∀ q ∈ tagnames, lit p.2 = lit q.2 → p.1 = q.1 := by decide +kernel
      exact key _ (tagnames_lookup_mem _ _ _ ha) _ (tagnames_lookup_mem _ _ _ hb) e
    | none => exact absurd h (mixed ha hb)
  | none =>
    cases hb : tagnames.lookup b with
    | some y => exact absurd h.symm (mixed hb ha)
    | none =>
      unfold tagname at h
      rw [ha, hb] at h
      have := intStr_inj (List.append_cancel_left h)
      omega

theorem leftpad_eq (n : Nat) (c : Nat) (s : PyStr) : s.leftpad n c = List.replicate (n - s.length) c ++ s := rfl

theorem replicate_pairs (k c : Nat) : (List.replicate k [c, c]).flatten = List.replicate (2 * k) c := by
  induction k with
  | zero => rfl
  | succ k ih =>
    rw [List.replicate_succ, List.flatten_cons, ih, show 2 * (k + 1) = 2 * k + 1 + 1 by omega,
      List.replicate_succ, List.replicate_succ]
    rfl

theorem simpleLine_eq (r : Record) : simpleLine r = listingLine r.seqno r.level (tagname r.tagid) := by
  have h1 : lit " " = [0x20] := by decide
  have h2 : lit "  " = [0x20, 0x20] := by decide
  have h3 : lit "\n" = [0x0a] := by decide
  unfold simpleLine listingLine pad4
  rw [leftpad_eq, decimal_nat, h1, h2, h3, replicate_pairs]

theorem split_at (c : Nat) {a b x y : PyStr} (ha : c ∉ a) (hb : c ∉ b) (h : a ++ c :: x = b ++ c :: y) :
    a = b ∧ x = y := by
  induction a generalizing b with
  | nil =>
    cases b with
    | nil => simpa using h
    | cons d b => simp at h; exact absurd (by simp [h.1]) hb
  | cons d a ih =>
    cases b with
    | nil => simp at h; exact absurd (by simp [h.1]) ha
    | cons e b =>
      simp only [List.cons_append, List.cons.injEq] at h
      obtain ⟨rfl, h⟩ := h
      obtain ⟨rfl, rfl⟩ := ih (fun hm => ha (by simp [hm])) (fun hm => hb (by simp [hm])) h
      exact ⟨rfl, rfl⟩

theorem replicate_split {c d e : Nat} {a b : Nat} {x y : PyStr} (hd : d ≠ c) (he : e ≠ c)
    (h : List.replicate a c ++ d :: x = List.replicate b c ++ e :: y) : a = b ∧ d :: x = e :: y := by
  induction a generalizing b with
  | zero =>
    cases b with
    | zero => exact ⟨rfl, by simpa using h⟩
    | succ b => simp [List.replicate_succ] at h; exact absurd h.1 hd
  | succ a ih =>
    cases b with
    | zero => simp [List.replicate_succ] at h; exact absurd h.1.symm he
    | succ b =>
      simp only [List.replicate_succ, List.cons_append, List.cons.injEq, true_and] at h
      obtain ⟨e1, e2⟩ := ih h
      exact ⟨by rw [e1], e2⟩

theorem pad4_mem (n : Nat) : ∀ c ∈ pad4 n, 0x30 ≤ c ∧ c ≤ 0x39 := by
  intro c hc
  unfold pad4 at hc
  rw [natStr_decDigits] at hc
  rcases List.mem_append.1 hc with hc | hc
  · rw [List.mem_replicate] at hc; omega
  · exact decDigits_mem n c hc

theorem pad4_value (n : Nat) : intDigits 0 false (pad4 n) = some n := by
  unfold pad4
  rw [natStr_decDigits]
  generalize 4 - (decDigits n).length = k
  have : ∀ k p, intDigits 0 p (List.replicate k 0x30 ++ decDigits n) = some n := by
    intro k
    induction k with
    | zero =>
      intro p
      have := intDigits_decDigits n p []
      simp only [List.append_nil] at this
      simp only [List.replicate_zero, List.nil_append]
      rw [this]; rfl
    | succ k ih =>
      intro p
      rw [List.replicate_succ, List.cons_append, intDigits]
      exact ih true
  exact this k false

theorem tagname_head (t : Nat) : ∃ u, tagname t = 0x48 :: u := by
  unfold tagname
  split
  · rename_i n hn
    have h := tagnames_shape _ (tagnames_lookup_mem _ _ _ hn)
    have e : lit "HWPTAG_" = 0x48 :: lit "WPTAG_" := by decide
    rw [e] at h
    dsimp only at h
    cases hl : lit n with
    | nil => rw [hl] at h; simp at h
    | cons c u => rw [hl] at h; simp at h; exact ⟨u, by rw [h.1]⟩
  · exact ⟨lit "WPTAG" ++ intStr _, by rw [show lit "HWPTAG" = 0x48 :: lit "WPTAG" by decide]; rfl⟩

theorem tagnames_plain : ∀ x ∈ tagnames, 0x0a ∉ lit x.2 := by decide +kernel

theorem intStr_plain (n : Int) : 0x0a ∉ intStr n := by
  intro h
  rw [intStr_decimal] at h
  have := decimal_plain n _ h
  simp [asciiSpace] at this

theorem tagname_plain (t : Nat) : 0x0a ∉ tagname t := by
  unfold tagname
  split
  · rename_i n hn
    exact tagnames_plain _ (tagnames_lookup_mem _ _ _ hn)
  · intro h
    rcases List.mem_append.1 h with h | h
    · revert h; decide
    · exact intStr_plain _ h

theorem simpleLine_inj {r r' : Record} {x y : PyStr} (h : simpleLine r ++ x = simpleLine r' ++ y) :
    r.seqno = r'.seqno ∧ r.level = r'.level ∧ r.tagid = r'.tagid ∧ x = y := by
  unfold simpleLine at h
  simp only [List.append_assoc, List.cons_append, List.nil_append] at h
  have hp : ∀ n, 0x20 ∉ pad4 n := fun n hm => by have := pad4_mem n _ hm; omega
  obtain ⟨h1, h2⟩ := split_at 0x20 (hp _) (hp _) h
  have hs : r.seqno = r'.seqno := by
    have := pad4_value r.seqno
    rw [h1, pad4_value] at this
    injection this with this; exact this.symm
  obtain ⟨u, hu⟩ := tagname_head r.tagid
  obtain ⟨u', hu'⟩ := tagname_head r'.tagid
  have rep : ∀ k (z : PyStr), List.replicate k 0x20 ++ 0x20 :: z = List.replicate (k + 1) 0x20 ++ z := by
    intro k z
    rw [List.replicate_succ', List.append_assoc]; rfl
  rw [rep, rep, hu, hu', List.cons_append, List.cons_append] at h2
  obtain ⟨h3, h4⟩ := replicate_split (by decide) (by decide) h2
  rw [← List.cons_append, ← List.cons_append, ← hu, ← hu'] at h4
  obtain ⟨h5, h6⟩ := split_at 0x0a (tagname_plain _) (tagname_plain _) h4
  exact ⟨hs, by omega, tagname_inj h5, h6⟩

theorem listing_inj (rs rs' : List Record)
    (h : (rs.map simpleLine).flatten = (rs'.map simpleLine).flatten) :
    rs.map (fun r => (r.seqno, r.level, r.tagid)) = rs'.map (fun r => (r.seqno, r.level, r.tagid)) := by
  have ne : ∀ r : Record, simpleLine r ≠ [] := by intro r; simp [simpleLine]
  induction rs generalizing rs' with
  | nil =>
    cases rs' with
    | nil => rfl
    | cons r' rs' => simp [eq_comm, ne] at h
  | cons r rs ih =>
    cases rs' with
    | nil => simp [ne] at h
    | cons r' rs' =>
      rw [List.map_cons, List.map_cons, List.flatten_cons, List.flatten_cons] at h
      obtain ⟨a, b, c, d⟩ := simpleLine_inj h
      rw [List.map_cons, List.map_cons, ih rs' d, a, b, c]

end Hwp
