/- Lemmas about enums, interned array types, hex dumps and colors. -/
import Verif.Proofs.Dataio
set_option linter.unusedSimpArgs false
namespace Hwp
open Spec

/-! ### Enums -/

/-- State of an enum class after the declarations `ds`. -/
structure EnumInv (d : EnumDef) (ds : List (String × Int)) : Prop where
  byName : ∀ n v, (n, v) ∈ ds → ∃ i, d.instancesByName.lookup n = some i ∧
    d.instancesByValue.lookup v = some i
  noName : ∀ n, n ∉ ds.map (·.1) → d.instancesByName.lookup n = none
  value : ∀ v i, d.instancesByValue.lookup v = some i → i.value = v ∧ i.ident < d.fresh
  noValue : ∀ v, v ∉ ds.map (·.2) → d.instancesByValue.lookup v = none
  names : ∀ v, d.namesByInstance.lookup v = firstName ds v
  inj : ∀ v w i j, d.instancesByValue.lookup v = some i → d.instancesByValue.lookup w = some j →
    i.ident = j.ident → v = w
  nodup : (ds.map (·.1)).Nodup

theorem EnumInv.empty : EnumInv {} [] := by
  constructor <;> simp [firstName]

theorem firstName_none {ds : List (String × Int)} {v : Int} (h : v ∉ ds.map (·.2)) :
    firstName ds v = none := by
  induction ds with
  | nil => rfl
  | cons p ds ih =>
    simp at h
    simp only [firstName]
    rw [if_neg (fun e => h.1 e.symm)]
    exact ih (by simpa using h.2)

theorem firstName_snoc (ds : List (String × Int)) (n : String) (v w : Int) :
    firstName (ds ++ [(n, v)]) w = (firstName ds w).or (if v = w then some n else none) := by
  induction ds with
  | nil => simp [firstName]
  | cons p ds ih =>
    simp only [List.cons_append, firstName, ih]
    split <;> simp

theorem firstName_some_of_mem {ds : List (String × Int)} {v : Int} (h : v ∈ ds.map (·.2)) :
    (firstName ds v).isSome := by
  induction ds with
  | nil => simp at h
  | cons p ds ih =>
    simp only [firstName]
    split
    · rfl
    · rename_i hne
      simp at h
      rcases h with h | h
      · exact absurd h.symm hne
      · exact ih (by simpa using h)

theorem EnumInv.define_dup {d ds} (h : EnumInv d ds) {n : String} {v : Int}
    (hn : n ∈ ds.map (·.1)) : d.define v n = .error .assertionError := by
  simp only [List.mem_map] at hn
  obtain ⟨⟨n', w⟩, hm, rfl⟩ := hn
  obtain ⟨i, hi, _⟩ := h.byName _ _ hm
  simp [EnumDef.define, hi]

theorem EnumInv.define {d ds} (h : EnumInv d ds) {n : String} {v : Int}
    (hn : n ∉ ds.map (·.1)) : ∃ d', d.define v n = .ok d' ∧ EnumInv d' (ds ++ [(n, v)]) := by
  have h0 := h.noName n hn
  have hnd : ((ds ++ [(n, v)]).map (·.1)).Nodup := by
    rw [List.map_append, List.nodup_append]
    refine ⟨h.nodup, by simp, ?_⟩
    intro a ha b hb
    simp at hb
    subst hb
    intro e; subst e; exact hn ha
  have hne : ∀ m w, (m, w) ∈ ds → (m == n) = false := by
    intro m w hm
    simp only [beq_eq_false_iff_ne]
    intro e; subst e; exact hn (List.mem_map.2 ⟨_, hm, rfl⟩)
  unfold EnumDef.define
  rw [h0]
  simp only [Option.isSome_none, Bool.false_eq_true, if_false]
  split
  · rename_i self hs
    refine ⟨_, rfl, ?_⟩
    have hmem : v ∈ ds.map (·.2) := by
      refine Classical.byContradiction fun hc => ?_
      have := h.noValue v hc
      rw [this] at hs; simp at hs
    constructor
    · intro m w hm
      simp only [List.mem_append, List.mem_singleton, Prod.mk.injEq] at hm
      rcases hm with hm | ⟨rfl, rfl⟩
      · obtain ⟨i, h1, h2⟩ := h.byName m w hm
        exact ⟨i, by simp [List.lookup_cons, hne m w hm, h1], h2⟩
      · exact ⟨self, by simp [List.lookup_cons], hs⟩
    · intro m hm
      simp at hm
      have h1 : (m == n) = false := by simp; exact hm.2
      simp only [List.lookup_cons, h1]
      exact h.noName m (by simpa using hm.1)
    · exact h.value
    · intro w hw
      exact h.noValue w (by simp at hw ⊢; exact hw.1)
    · intro w
      rw [firstName_snoc]
      dsimp only
      rw [h.names w]
      by_cases e : v = w
      · subst e
        have := firstName_some_of_mem hmem
        cases hf : firstName ds v with
        | none => rw [hf] at this; simp at this
        | some x => simp
      · simp [e]
    · exact h.inj
    · exact hnd
  · rename_i hs
    refine ⟨_, rfl, ?_⟩
    have hnm : v ∉ ds.map (·.2) := by
      intro hc
      simp only [List.mem_map] at hc
      obtain ⟨⟨m, w⟩, hm, rfl⟩ := hc
      obtain ⟨i, _, h2⟩ := h.byName _ _ hm
      rw [hs] at h2; simp at h2
    constructor
    · intro m w hm
      simp only [List.mem_append, List.mem_singleton, Prod.mk.injEq] at hm
      rcases hm with hm | ⟨rfl, rfl⟩
      · obtain ⟨i, h1, h2⟩ := h.byName m w hm
        have hvw : (w == v) = false := by
          simp only [beq_eq_false_iff_ne]; intro e; subst e
          exact hnm (List.mem_map.2 ⟨_, hm, rfl⟩)
        exact ⟨i, by simp [List.lookup_cons, hne m w hm, h1], by simp [List.lookup_cons, hvw, h2]⟩
      · exact ⟨⟨d.fresh, w⟩, by simp [List.lookup_cons], by simp [List.lookup_cons]⟩
    · intro m hm
      simp at hm
      have h1 : (m == n) = false := by simp; exact hm.2
      simp only [List.lookup_cons, h1]
      exact h.noName m (by simpa using hm.1)
    · intro w i hi
      simp only [List.lookup_cons] at hi
      split at hi
      · rename_i e
        simp at hi e; subst hi; exact ⟨e.symm, by dsimp only; omega⟩
      · have := h.value w i hi
        exact ⟨this.1, by dsimp only; omega⟩
    · intro w hw
      simp at hw
      have h1 : (w == v) = false := by simp; exact hw.2
      simp only [List.lookup_cons, h1]
      exact h.noValue w (by simpa using hw.1)
    · intro w
      rw [firstName_snoc]
      simp only [List.lookup_cons]
      split
      · rename_i e
        simp at e; subst e
        rw [firstName_none hnm]; simp
      · rename_i e
        simp at e
        rw [h.names w, if_neg (fun h => e h.symm)]; simp
    · intro x y i j hi hj hij
      simp only [List.lookup_cons] at hi hj
      split at hi
      · rename_i e; simp at e hi; subst e; subst hi
        split at hj
        · rename_i e; simp at e; exact e.symm
        · have := (h.value y j hj).2; dsimp only at hij; omega
      · split at hj
        · rename_i e; simp at e hj; subst e; subst hj
          have := (h.value x i hi).2; dsimp only at hij; omega
        · exact h.inj x y i j hi hj hij
    · exact hnd

theorem EnumInv.populate : ∀ (ds' : List (String × Int)) {d ds}, EnumInv d ds →
    (∃ d', d.populate ds' = .ok d' ∧ EnumInv d' (ds ++ ds')) ∨
    (d.populate ds' = .error .assertionError ∧ ¬ ((ds ++ ds').map (·.1)).Nodup) := by
  intro ds'
  induction ds' with
  | nil => intro d ds h; left; exact ⟨d, rfl, by simpa using h⟩
  | cons p ds' ih =>
    obtain ⟨n, v⟩ := p
    intro d ds h
    by_cases hn : n ∈ ds.map (·.1)
    · right
      constructor
      · simp [EnumDef.populate, h.define_dup hn, bind, Except.bind]
      · intro hc
        rw [List.map_append, List.nodup_append] at hc
        exact hc.2.2 n hn n (by simp) rfl
    · obtain ⟨d', h1, h2⟩ := h.define (v := v) hn
      have := ih h2
      simpa [EnumDef.populate, h1, bind, Except.bind] using this

theorem enumDecls_eq (items : List String) (more : List (String × Int)) :
    items.mapIdx (fun i k => (k, (i : Int))) ++ more = enumDecls items more := by
  unfold enumDecls
  congr 1
  apply List.ext_getElem
  · simp
  · intro i h1 h2; simp

theorem enumType_cases (items : List String) (more : List (String × Int)) :
    (∃ d, enumType items more = .ok d ∧ EnumInv d (enumDecls items more)) ∨
    (enumType items more = .error .assertionError ∧
      ¬ ((enumDecls items more).map (·.1)).Nodup) := by
  unfold enumType
  rw [enumDecls_eq]
  have := EnumInv.populate (enumDecls items more) EnumInv.empty
  simpa using this

/-! ### Interned classes -/

/-- Keys known, identities distinct and below `fresh`. -/
structure TableInv {κ} [BEq κ] (t : ClassTable κ) : Prop where
  lt : ∀ k c, t.classes.lookup k = some c → c < t.fresh
  inj : ∀ k l c, t.classes.lookup k = some c → t.classes.lookup l = some c → k = l

theorem TableInv.request {κ} [BEq κ] [LawfulBEq κ] {t : ClassTable κ} (h : TableInv t) (k : κ) :
    TableInv (t.request k).2 ∧ (t.request k).2.classes.lookup k = some (t.request k).1 ∧
    (∀ l c, t.classes.lookup l = some c → (t.request k).2.classes.lookup l = some c) ∧
    t.fresh ≤ (t.request k).2.fresh := by
  unfold ClassTable.request
  split
  · rename_i c hc; exact ⟨h, hc, fun _ _ h => h, by simp⟩
  · rename_i hn
    refine ⟨⟨?_, ?_⟩, by simp [List.lookup_cons], ?_, by simp⟩
    · intro l c hl
      simp only [List.lookup_cons] at hl
      split at hl
      · simp at hl; subst hl; dsimp only; omega
      · have := h.lt l c hl; dsimp only; omega
    · intro x y c hx hy
      simp only [List.lookup_cons] at hx hy
      split at hx
      · rename_i e; simp at e hx; subst e
        split at hy
        · rename_i e; simp at e; exact e.symm
        · have := h.lt y c hy; omega
      · split at hy
        · rename_i e; simp at e hy; have := h.lt x c hx; omega
        · exact h.inj x y c hx hy
    · intro l c hl
      simp only [List.lookup_cons]
      split
      · rename_i e; simp at e; subst e; rw [hn] at hl; simp at hl
      · exact hl

theorem requests_length {κ} [BEq κ] (ks : List κ) (t : ClassTable κ) :
    (t.requests ks).length = ks.length := by
  induction ks generalizing t with
  | nil => rfl
  | cons k ks ih => simp [ClassTable.requests, ih]

/-- Results of later requests agree with the table. -/
theorem requests_known {κ} [BEq κ] [LawfulBEq κ] (ks : List κ) {t : ClassTable κ} (h : TableInv t)
    (l : κ) (c : Nat) (hl : t.classes.lookup l = some c) (i : Nat) (hi : i < ks.length) :
    (t.requests ks)[i]'(by rw [requests_length]; exact hi) = c ↔ ks[i] = l := by
  induction ks generalizing t i with
  | nil => simp at hi
  | cons k ks ih =>
    have hr := h.request k
    cases i with
    | zero =>
      simp only [ClassTable.requests, List.getElem_cons_zero]
      constructor
      · intro e
        exact hr.1.inj k l c (by rw [hr.2.1, e]) (hr.2.2.1 l c hl)
      · intro e; subst e
        have := hr.2.2.1 k c hl
        rw [hr.2.1] at this
        simpa using this
    | succ i =>
      simp only [ClassTable.requests, List.getElem_cons_succ]
      exact ih hr.1 (hr.2.2.1 l c hl) i (by simpa using hi)

theorem requests_eq_iff {κ} [BEq κ] [LawfulBEq κ] (ks : List κ) {t : ClassTable κ} (h : TableInv t)
    (i j : Nat) (hi : i < ks.length) (hj : j < ks.length) :
    (t.requests ks)[i]'(by rw [requests_length]; exact hi) =
      (t.requests ks)[j]'(by rw [requests_length]; exact hj) ↔ ks[i] = ks[j] := by
  induction ks generalizing t i j with
  | nil => simp at hi
  | cons k ks ih =>
    have hr := h.request k
    cases i with
    | zero =>
      cases j with
      | zero => simp
      | succ j =>
        simp only [ClassTable.requests, List.getElem_cons_succ, List.getElem_cons_zero]
        rw [eq_comm, requests_known ks hr.1 k _ hr.2.1 j (by simpa using hj), eq_comm]
    | succ i =>
      cases j with
      | zero =>
        simp only [ClassTable.requests, List.getElem_cons_succ, List.getElem_cons_zero]
        rw [requests_known ks hr.1 k _ hr.2.1 i (by simpa using hi)]
      | succ j =>
        simp only [ClassTable.requests, List.getElem_cons_succ]
        exact ih hr.1 i j (by simpa using hi) (by simpa using hj)

/-! ### Hexadecimal -/

theorem hexVal_hexDigit : ∀ n < 16, hexVal (hexDigit n) = some n := by decide +kernel

theorem hexDigit_not_blank : ∀ n < 16, hexDigit n ≠ ' ' ∧ hexDigit n ≠ '\n' := by decide +kernel

theorem hexNumber_append (acc : Nat) (xs ys : List Char) :
    hexNumber acc (xs ++ ys) = (hexNumber acc xs).bind (fun a => hexNumber a ys) := by
  induction xs generalizing acc with
  | nil => rfl
  | cons c xs ih =>
    simp only [List.cons_append, hexNumber, bind, Option.bind]
    cases hexVal c with
    | none => rfl
    | some v => simp only; exact ih _

theorem hexNumber_hexNat (n : Nat) : hexNumber 0 (hexNat n) = some n := by
  induction n using Nat.strongRecOn with
  | ind n ih =>
    rw [hexNat]
    split
    · rename_i h; simp [hexNumber, hexVal_hexDigit n h]
    · rename_i h
      rw [hexNumber_append, ih (n / 16) (by omega)]
      simp [hexNumber, hexVal_hexDigit (n % 16) (by omega)]
      omega

theorem hexNumber_zeros (k : Nat) (xs : List Char) :
    hexNumber 0 (List.replicate k '0' ++ xs) = hexNumber 0 xs := by
  induction k with
  | zero => simp
  | succ k ih =>
    rw [List.replicate_succ, List.cons_append]
    have : hexVal '0' = some 0 := by decide +kernel
    simp only [hexNumber, this, bind, Option.bind]
    exact ih

theorem hexNumber_hex05 (n : Nat) : hexNumber 0 (hex05 n) = some n := by
  simp only [hex05, hexNumber_zeros, hexNumber_hexNat]

theorem hexNumber_hex02 (b : UInt8) : hexNumber 0 (hex02 b) = some b.toNat := by
  have := b.toNat_lt
  simp [hex02, hexNumber, hexVal_hexDigit (b.toNat / 16) (by omega),
    hexVal_hexDigit (b.toNat % 16) (by omega)]
  omega

theorem undump_pair (b : UInt8) (cs : List Char) :
    undump (hex02 b ++ cs) = (undump cs).map (b :: ·) := by
  have hb := b.toNat_lt
  have h1 := hexDigit_not_blank (b.toNat / 16) (by omega)
  have h := hexNumber_hex02 b
  unfold hex02 at h ⊢
  simp only [List.cons_append, List.nil_append]
  rw [undump.eq_4]
  · simp [h, bind, Option.bind]
    cases undump cs <;> simp
  · exact h1.1
  · exact h1.2

theorem undump_join (d : Bytes) (cs : List Char) :
    undump (joinWith [' '] (d.map hex02) ++ cs) = (undump cs).map (d ++ ·) := by
  induction d with
  | nil => simp [joinWith]
  | cons b d ih =>
    cases d with
    | nil => simp only [List.map_cons, List.map_nil, joinWith]; rw [undump_pair]; rfl
    | cons b' d =>
      rw [List.map_cons, List.map_cons, joinWith]
      · rw [List.append_assoc, List.append_assoc, undump_pair]
        simp only [List.cons_append, List.nil_append]
        rw [undump.eq_2]
        rw [← List.map_cons, ih]
        cases undump cs <;> simp
      · simp

theorem dumpLoop_undump (o : Nat) (d : Bytes) :
    undump (joinWith ['\n'] (dumpLoop false o d)) = some d := by
  induction hk : d.length using Nat.strongRecOn generalizing d o with
  | ind k ih =>
    rw [dumpLoop]
    split
    · rename_i h
      have hne : dumpLoop false (o + 1) (d.drop 16) ≠ [] := by
        rw [dumpLoop]; split <;> simp
      have ih' := ih (d.drop 16).length (by simp; omega) (o + 1) (d.drop 16) rfl
      cases hl : dumpLoop false (o + 1) (d.drop 16) with
      | nil => exact absurd hl hne
      | cons l ls =>
        rw [hl] at ih'
        rw [joinWith]
        · simp only [dumpLine, Bool.false_eq_true, if_false, List.nil_append, List.append_assoc]
          rw [undump_join]
          simp only [List.cons_append, List.nil_append]
          rw [undump.eq_3, ih']
          simp
        · simp
    · simp only [joinWith, dumpLine, Bool.false_eq_true, if_false, List.nil_append]
      have := undump_join d []
      rw [List.append_nil] at this
      rw [this]; simp [undump]

theorem dumpLoop_crust (o : Nat) (d : Bytes) :
    dumpLoop true o d = (dumpLoop false o d).mapIdx (fun i l => hex05 (o + i) ++ "0: ".toList ++ l) := by
  induction hk : d.length using Nat.strongRecOn generalizing d o with
  | ind k ih =>
    rw [dumpLoop, dumpLoop.eq_def false]
    split
    · rw [ih (d.drop 16).length (by simp; omega) (o + 1) (d.drop 16) rfl, List.mapIdx_cons]
      simp only [dumpLine, if_true, Nat.add_zero, Bool.false_eq_true, if_false, List.nil_append]
      have : ∀ i, o + 1 + i = o + (i + 1) := by omega
      simp only [this]
      rfl
    · simp [dumpLine]

theorem dumpLoop_length (o : Nat) (d : Bytes) :
    (dumpLoop false o d).length = max 1 ((d.length + 15) / 16) := by
  induction hk : d.length using Nat.strongRecOn generalizing d o with
  | ind k ih =>
    rw [dumpLoop]
    split
    · have := ih (d.drop 16).length (by simp; omega) (o + 1) (d.drop 16) rfl
      simp only [List.length_cons, this, List.length_drop]
      omega
    · simp; omega

theorem dumpLoop_getElem (o : Nat) (d : Bytes) (i : Nat) (hi : i < (dumpLoop false o d).length) :
    (dumpLoop false o d)[i] = joinWith [' '] (((d.drop (16 * i)).take 16).map hex02) := by
  induction hk : d.length using Nat.strongRecOn generalizing d o i with
  | ind k ih =>
    simp only [dumpLoop.eq_def false o d] at hi ⊢
    split at hi
    · rename_i h
      simp only [if_pos h]
      cases i with
      | zero => simp [dumpLine]
      | succ i =>
        simp only [List.getElem_cons_succ]
        rw [ih (d.drop 16).length (by simp; omega) (o + 1) (d.drop 16) i (by simpa using hi) rfl]
        rw [List.drop_drop]
        have : 16 + 16 * i = 16 * (i + 1) := by omega
        rw [this]
    · rename_i h
      simp only [if_neg h]
      have : i = 0 := by simp at hi; omega
      subst this
      simp only [List.getElem_cons_zero, dumpLine]
      rw [Nat.mul_zero, List.drop_zero, List.take_of_length_le (by omega)]
      simp

/-! ### Colors -/

theorem pyAnd32_channel (v : Int) (k : Nat) (hk : k < 4) :
    pyAnd32 v (0xff * 256 ^ k) >>> (8 * k) = ((v % 2 ^ 32).toNat / 256 ^ k) % 256 := by
  have h4 : ∀ n : Nat, (n &&& (0xff * 256 ^ k)) >>> (8 * k) = n / 256 ^ k % 256 := by
    intro n
    rw [Nat.shiftRight_and_distrib]
    have e : (256 : Nat) ^ k = 2 ^ (8 * k) := by rw [Nat.pow_mul]
    rw [e, Nat.shiftRight_eq_div_pow, Nat.shiftRight_eq_div_pow,
      Nat.mul_div_cancel _ (Nat.two_pow_pos _)]
    have := Nat.and_two_pow_sub_one_eq_mod (n / 2 ^ (8 * k)) 8
    simpa using this
  exact h4 _

theorem hex2_byte (b : UInt8) : Colorref.hex2 b.toNat = hex02 b := by
  have hb := b.toNat_lt
  unfold Colorref.hex2 hex02
  rw [hexNat]
  split
  · rename_i h
    have h1 : b.toNat / 16 = 0 := by omega
    have h2 : b.toNat % 16 = b.toNat := by omega
    rw [h1, h2]; rfl
  · rw [hexNat, if_pos (by omega)]
    rfl

end Hwp
