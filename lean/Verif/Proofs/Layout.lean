/- Proofs: the fields of records are at fixed places of the payload. -/
import Verif.Spec.LayoutTable
import Verif.Proofs.DeclModel
set_option linter.unusedSimpArgs false
set_option linter.unusedVariables false
namespace Hwp
open Spec

theorem number_eq (b : Bytes) : number b = leNat b := by
  induction b with
  | nil => rfl
  | cons b bs ih => simp [number, leNat, ih]

/-! ### Sizes -/

/-- Size of a primitive value. -/
def primSize : PTy → Option Nat
  | .int p => some (width p)
  | .double => some 8
  | .chid => some 4
  | .colorref => some 4
  | .binStorageId => some 2
  | _ => none

mutual
/-- Size of the values of a type, if fixed. -/
def sizeTy : DTy → Option Nat
  | .prim p => primSize p
  | .flags f => some (width f.base)
  | .struct _ ms => sizeMembers ms
  | _ => none
/-- Size of the members. -/
def sizeMembers : DMembers → Option Nat
  | .nil => some 0
  | .cons _ version condition t rest =>
    if version.isSome || condition.isSome then none
    else
      match sizeTy t, sizeMembers rest with
      | some a, some b => some (a + b)
      | _, _ => none
end

theorem fmt_prim (p : Prim) : fmtInfo p.binfmt = (width p, signed p) := by cases p <;> decide

/-- The number a primitive type reads. -/
def intOfBytes (p : Prim) (b : Bytes) : Int :=
  if signed p = true ∧ 2 ^ (8 * width p - 1) ≤ leNat b then (leNat b : Int) - 2 ^ (8 * width p) else leNat b

theorem int_read (p : Prim) (s : Bytes) (h : width p ≤ s.length) :
    p.read s = .ok (intOfBytes p (s.take (width p)), s.drop (width p)) := by
  have hr : readn (width p) s = .ok (s.take (width p), s.drop (width p)) := by
    have := readn_append (d := s.take (width p)) (r := s.drop (width p)) (n := width p)
      (by rw [List.length_take]; omega) (width_pos p)
    rwa [List.take_append_drop] at this
  have hl : (s.take (width p)).length = width p := by rw [List.length_take]; omega
  simp only [Prim.read, structUnpack, fmt_prim, hr, bind, Except.bind, pure, Except.pure, hl]
  unfold intOfBytes
  simp only [ne_eq, not_true, if_false]
  by_cases hc : signed p = true ∧ 2 ^ (8 * width p - 1) ≤ leNat (s.take (width p))
  · simp only [hc, if_true, and_self]
  · simp only [hc, if_false]

theorem int_short (p : Prim) (s : Bytes) (h : s.length < width p) : ∃ e, p.read s = .error e := by
  cases hr : p.read s with
  | error e => exact ⟨e, rfl⟩
  | ok v =>
    obtain ⟨h1, h2⟩ := Props.C33_encode_read p s v.2 v.1 hr
    have := congrArg List.length h2
    simp [encodeInt] at this
    omega

theorem intOfBytes_nonneg (p : Prim) (b : Bytes) (h : signed p = false) : intOfBytes p b = leNat b := by
  unfold intOfBytes
  rw [if_neg (by simp [h])]

/-! ### Slots -/

/-- A slot, and the versions it needs. -/
structure PSlot where
  slot : Slot
  since : List Version

/-- Put into a struct. -/
def PSlot.within (k : String) (p : PSlot) : PSlot := ⟨{ p.slot with path := k :: p.slot.path }, p.since⟩

/-- The slot of a primitive value. -/
def primSlot (since : List Version) (off : Nat) : PTy → List PSlot
  | .int p => [⟨⟨[], off, width p, if signed p then .signed else .unsigned⟩, since⟩]
  | .double => [⟨⟨[], off, 8, .raw⟩, since⟩]
  | .chid => [⟨⟨[], off, 4, .chid⟩, since⟩]
  | .colorref => [⟨⟨[], off, 4, .signed⟩, since⟩]
  | .binStorageId => [⟨⟨[], off, 2, .unsigned⟩, since⟩]
  | _ => []

mutual
/-- The slots of a type. -/
def slotsTy (since : List Version) (off : Nat) : DTy → List PSlot
  | .prim p => primSlot since off p
  | .flags f =>
    if signed f.base || !decide (f.bits.map (·.name)).Nodup then []
    else ⟨⟨[], off, width f.base, .unsigned⟩, since⟩ ::
      f.bits.map fun b => ⟨⟨[b.name], off, width f.base, .bits b.lsb b.msb (b.enum.getD [])⟩, since⟩
  | .struct _ ms => slotsMembers since off ms
  | _ => []
/-- The slots of the members, up to the first one of no fixed size. -/
def slotsMembers (since : List Version) (off : Nat) : DMembers → List PSlot
  | .nil => []
  | .cons name version condition t rest =>
    if condition.isSome || decide (name ∈ rest.names) then []
    else
      match sizeTy t with
      | none => []
      | some n =>
        (slotsTy (version.toList ++ since) off t).map (PSlot.within name) ++
          slotsMembers (version.toList ++ since) (off + n) rest
end

/-! ### Reading -/

theorem leaf_some {V} {e : PyErr} {r : Except PyErr (V × Bytes)} {ov : Option (Value V)} {s' : Bytes}
    (h : leafResult e r = .ok (ov, s')) : ∃ v, r = .ok (v, s') ∧ ov = some (.leaf v) := by
  unfold leafResult at h
  split at h
  · rename_i v s
    simp only [Except.ok.injEq, Prod.mk.injEq] at h
    exact ⟨v, by rw [h.2], h.1.symm⟩
  · cases h

theorem prim_size (p : PTy) (n : Nat) (hn : primSize p = some n) (s : Bytes) (h : n ≤ s.length) :
    ∃ v, p.read s = .ok (v, s.drop n) := by
  cases p with
  | int q =>
    simp only [primSize, Option.some.injEq] at hn; subst hn
    exact ⟨_, by simp only [PTy.read, int_read q s h, bind, Except.bind, pure, Except.pure]; rfl⟩
  | colorref =>
    simp only [primSize, Option.some.injEq] at hn; subst hn
    exact ⟨_, by simp only [PTy.read, int_read .INT32 s h, bind, Except.bind, pure, Except.pure]; rfl⟩
  | binStorageId =>
    simp only [primSize, Option.some.injEq] at hn; subst hn
    exact ⟨_, by simp only [PTy.read, int_read .UINT16 s h, bind, Except.bind, pure, Except.pure]; rfl⟩
  | double =>
    simp only [primSize, Option.some.injEq] at hn; subst hn
    have hl : (s.take 8).length = 8 := by rw [List.length_take]; omega
    have := readn_append (r := s.drop 8) hl (by omega)
    rw [List.take_append_drop] at this
    exact ⟨.double (s.take 8), by simp [PTy.read, this, bind, Except.bind, pure, Except.pure, hl]⟩
  | chid =>
    simp only [primSize, Option.some.injEq] at hn; subst hn
    have hl : (s.take 4).length = 4 := by rw [List.length_take]; omega
    have := readn_append (r := s.drop 4) hl (by omega)
    rw [List.take_append_drop] at this
    refine ⟨.chid (s.take 4).reverse, ?_⟩
    simp only [PTy.read, this, bind, Except.bind, pure, Except.pure]
    generalize s.take 4 = d at hl
    match d, hl with
    | [x0, x1, x2, x3], _ => rfl
  | hexBytes k => simp [primSize] at hn
  | bstr => simp [primSize] at hn
  | chunks => simp [primSize] at hn
  | version => simp [primSize] at hn

theorem drop_of_append {s b r : Bytes} {n : Nat} (h : s = b ++ r) (hl : b.length = n) : n ≤ s.length ∧ r = s.drop n ∧ b = s.take n := by
  subst h hl
  simp

theorem prim_read (p : PTy) (n : Nat) (hn : primSize p = some n) (s r : Bytes) (v : PVal)
    (h : p.read s = .ok (v, r)) (since : List Version) (payload : Bytes) (off : Nat) (hs : payload.drop off = s) :
    n ≤ s.length ∧ r = s.drop n ∧
    ∀ x ∈ primSlot since off p, valueAt (.leaf v) x.slot.path = some (datumAt payload x.slot) := by
  have hlen : n ≤ s.length := by
    obtain ⟨b, h1, h2⟩ := prim_read_write p v s r h (Or.inr (by cases p <;> simp_all [primSize, fixedPrim]))
    have hb : b.length = n := by
      cases p <;> simp only [primSize, reduceCtorEq, Option.some.injEq] at hn <;> subst hn <;> cases v <;>
        simp only [writePrim, reduceCtorEq] at h1 <;> split at h1 <;>
        simp only [Option.some.injEq, reduceCtorEq] at h1 <;> subst h1 <;> simp_all [encodeInt, width]
    exact (drop_of_append h2 hb).1
  obtain ⟨v', h'⟩ := prim_size p n hn s hlen
  rw [h] at h'
  simp only [Except.ok.injEq, Prod.mk.injEq] at h'
  refine ⟨hlen, h'.2, ?_⟩
  intro x hx
  cases p with
  | int q =>
    simp only [primSize, Option.some.injEq] at hn; subst hn
    simp only [PTy.read, int_read q s hlen, bind, Except.bind, pure, Except.pure, Except.ok.injEq, Prod.mk.injEq] at h
    simp only [primSlot, List.mem_singleton] at hx
    subst hx
    rw [← h.1]
    simp only [valueAt, leafDatum, datumAt, hs, number_eq]
    cases hq : signed q
    · simp [intOfBytes_nonneg q _ hq]
    · simp only [if_true, intOfBytes, hq, true_and]
      by_cases hc : 2 ^ (8 * width q - 1) ≤ leNat (s.take (width q))
      · rw [if_pos hc, if_neg (by omega)]
      · rw [if_neg hc, if_pos (by omega)]
  | colorref =>
    simp only [primSize, Option.some.injEq] at hn; subst hn
    simp only [PTy.read, int_read .INT32 s hlen, bind, Except.bind, pure, Except.pure, Except.ok.injEq, Prod.mk.injEq] at h
    simp only [primSlot, List.mem_singleton] at hx
    subst hx
    rw [← h.1]
    simp only [valueAt, leafDatum, datumAt, hs, number_eq, intOfBytes, signed, width, true_and]
    by_cases hc : 2 ^ (8 * 4 - 1) ≤ leNat (s.take 4)
    · rw [if_pos hc, if_neg (by omega)]
    · rw [if_neg hc, if_pos (by omega)]
  | binStorageId =>
    simp only [primSize, Option.some.injEq] at hn; subst hn
    simp only [PTy.read, int_read .UINT16 s hlen, bind, Except.bind, pure, Except.pure, Except.ok.injEq, Prod.mk.injEq] at h
    simp only [primSlot, List.mem_singleton] at hx
    subst hx
    rw [← h.1, intOfBytes_nonneg _ _ rfl]
    simp only [valueAt, leafDatum, datumAt, hs, number_eq, width]
  | double =>
    simp only [primSize, Option.some.injEq] at hn; subst hn
    have hl : (s.take 8).length = 8 := by rw [List.length_take]; omega
    have hr := readn_append (r := s.drop 8) hl (by omega)
    rw [List.take_append_drop] at hr
    simp only [PTy.read, hr, bind, Except.bind, pure, Except.pure] at h
    rw [if_neg (by omega)] at h
    simp only [Except.ok.injEq, Prod.mk.injEq] at h
    simp only [primSlot, List.mem_singleton] at hx
    subst hx
    rw [← h.1]
    simp only [valueAt, leafDatum, datumAt, hs]
  | chid =>
    simp only [primSize, Option.some.injEq] at hn; subst hn
    have hl : (s.take 4).length = 4 := by rw [List.length_take]; omega
    have hr := readn_append (r := s.drop 4) hl (by omega)
    rw [List.take_append_drop] at hr
    simp only [PTy.read, hr, bind, Except.bind, pure, Except.pure] at h
    simp only [primSlot, List.mem_singleton] at hx
    subst hx
    simp only [datumAt, hs]
    generalize s.take 4 = d at hl h
    match d, hl with
    | [x0, x1, x2, x3], _ =>
      simp [chidDecode] at h
      rw [← h.1]
      rfl
  | hexBytes k => simp [primSize] at hn
  | bstr => simp [primSize] at hn
  | chunks => simp [primSize] at hn
  | version => simp [primSize] at hn

theorem find_name : ∀ (bs : List BitDecl), (bs.map (·.name)).Nodup → ∀ b ∈ bs, bs.find? (fun x => x.name = b.name) = some b
  | [], _, b, hb => by simp at hb
  | a :: as, hn, b, hb => by
    simp only [List.map_cons, List.nodup_cons] at hn
    rcases List.mem_cons.1 hb with rfl | hb
    · simp [List.find?]
    · have : a.name ≠ b.name := fun e => hn.1 (e ▸ List.mem_map_of_mem hb)
      simp only [List.find?_cons, this, decide_false]
      exact find_name as hn.2 b hb

theorem bitGroup_eq (lsb msb n : Nat) : bitGroup lsb msb n = n / 2 ^ lsb % 2 ^ (msb + 1 - lsb) := by
  unfold bitGroup
  rw [Nat.and_two_pow_sub_one_eq_mod, Nat.shiftRight_eq_div_pow]

theorem lookup_setField_ne {V} (k n : String) (x : Value V) (h : n ≠ k) : ∀ (fs : List (String × Value V)),
    (setField k x fs).lookup n = fs.lookup n
  | [] => by simp [setField, List.lookup, beq_eq_false_iff_ne.2 h]
  | (m, v) :: fs => by
    simp only [setField]
    split
    · rename_i e
      subst e
      simp [List.lookup, beq_eq_false_iff_ne.2 h]
    · simp only [List.lookup]
      rw [lookup_setField_ne k n x h fs]

theorem lookup_setField_self {V} (k : String) (x : Value V) : ∀ (fs : List (String × Value V)),
    (setField k x fs).lookup k = some x
  | [] => by simp [setField, List.lookup]
  | (m, v) :: fs => by
    simp only [setField]
    split
    · rename_i e
      subst e
      simp [List.lookup]
    · rename_i e
      simp only [List.lookup]
      rw [beq_eq_false_iff_ne.2 (fun h => e h.symm)]
      exact lookup_setField_self k x fs

/-- Members not named stay. -/
theorem read_lookup {fe : PyErr} {ver : Option Version} {ctx : DCtx} (n : String) : ∀ (ms : DMembers) (acc fs : Fields) (s r : Bytes),
    readMembers fe ver ctx ms.toMembers acc s = .ok (fs, r) → n ∉ ms.names → fs.lookup n = acc.lookup n
  | .nil, acc, fs, s, r, h, hn => by
    simp only [DMembers.toMembers, readMembers, Except.ok.injEq, Prod.mk.injEq] at h
    rw [h.1]
  | .cons name version condition t rest, acc, fs, s, r, h, hn => by
    simp only [DMembers.names, List.mem_cons, not_or] at hn
    simp only [DMembers.toMembers, readMembers] at h
    split at h
    · split at h
      · cases h
      · exact read_lookup n rest _ _ _ _ h hn.2
      · split at h
        · cases h
        · exact read_lookup n rest _ _ _ _ h hn.2
        · rw [read_lookup n rest _ _ _ _ h hn.2, lookup_setField_ne _ _ _ hn.1]
    · exact read_lookup n rest _ _ _ _ h hn.2

mutual
theorem since_ty (since : List Version) : ∀ (t : DTy) (off : Nat), ∀ x ∈ slotsTy since off t, ∀ v ∈ since, v ∈ x.since
  | .prim p, off, x, hx, v, hv => by
    cases p <;> simp [slotsTy, primSlot] at hx <;> subst hx <;> exact hv
  | .flags f, off, x, hx, v, hv => by
    simp only [slotsTy] at hx
    split at hx
    · simp at hx
    · simp only [List.mem_cons, List.mem_map] at hx
      rcases hx with rfl | ⟨b, -, rfl⟩ <;> exact hv
  | .struct _ ms, off, x, hx, v, hv => by
    simp only [slotsTy] at hx
    exact since_members since ms off x hx v hv
  | .array _ _, off, x, hx, v, hv => by simp [slotsTy] at hx
  | .nArray _ _, off, x, hx, v, hv => by simp [slotsTy] at hx
  | .xArray _ _, off, x, hx, v, hv => by simp [slotsTy] at hx
  | .selective _ _, off, x, hx, v, hv => by simp [slotsTy] at hx
theorem since_members (since : List Version) : ∀ (ms : DMembers) (off : Nat), ∀ x ∈ slotsMembers since off ms, ∀ v ∈ since, v ∈ x.since
  | .nil, off, x, hx, v, hv => by simp [slotsMembers] at hx
  | .cons name version condition t rest, off, x, hx, v, hv => by
    simp only [slotsMembers] at hx
    split at hx
    · simp at hx
    · split at hx
      · simp at hx
      · simp only [List.mem_append, List.mem_map] at hx
        have hv' : v ∈ version.toList ++ since := List.mem_append_right _ hv
        rcases hx with ⟨y, hy, rfl⟩ | hx
        · exact since_ty _ t off y hy v hv'
        · exact since_members _ rest _ x hx v hv'
end

mutual
/-- A value of a type of fixed size, and its slots. -/
theorem read_slots_ty (fe : PyErr) (ver : Version) (ctx : DCtx) (payload : Bytes) (since : List Version) :
    ∀ (t : DTy) (par : Option (Value PVal)) (n off : Nat) (s r : Bytes) (ov : Option (Value PVal)), sizeTy t = some n →
    readTy fe (some ver) ctx par t.toTy s = .ok (ov, r) → payload.drop off = s →
    n ≤ s.length ∧ r = s.drop n ∧ ∃ v, ov = some v ∧
    ∀ x ∈ slotsTy since off t, (∀ m ∈ x.since, versionOk (some ver) (some m) = true) →
      valueAt v x.slot.path = some (datumAt payload x.slot)
  | .prim p, par, n, off, s, r, ov, hn, h, hs => by
    simp only [DTy.toTy, readTy] at h
    obtain ⟨v, h1, rfl⟩ := leaf_some h
    simp only [sizeTy] at hn
    obtain ⟨h2, h3, h4⟩ := prim_read p n hn s r v h1 since payload off hs
    exact ⟨h2, h3, _, rfl, fun x hx _ => h4 x (by simpa [slotsTy] using hx)⟩
  | .flags f, par, n, off, s, r, ov, hn, h, hs => by
    simp only [DTy.toTy, readTy] at h
    simp only [sizeTy, Option.some.injEq] at hn
    subst hn
    obtain ⟨v, h1, rfl⟩ := leaf_some h
    have hlen : width f.base ≤ s.length := by
      apply Classical.byContradiction
      intro hc
      obtain ⟨e, he⟩ := int_short f.base s (by omega)
      simp [PTy.read, he, bind, Except.bind, Except.map] at h1
    simp only [PTy.read, int_read f.base s hlen, bind, Except.bind, pure, Except.pure, Except.map,
      Except.ok.injEq, Prod.mk.injEq, toFlags] at h1
    refine ⟨hlen, h1.2.symm, _, rfl, ?_⟩
    intro x hx _
    simp only [slotsTy] at hx
    split at hx
    · simp at hx
    · rename_i hc
      simp only [Bool.or_eq_true, Bool.not_eq_true', decide_eq_false_iff_not, not_or, Bool.not_eq_true, not_not] at hc
      rw [← h1.1, intOfBytes_nonneg _ _ hc.1]
      simp only [List.mem_cons, List.mem_map] at hx
      rcases hx with rfl | ⟨b, hb, rfl⟩
      · simp [valueAt, leafDatum, datumAt, hs, number_eq]
      · simp only [valueAt, flagDatum, find_name f.bits hc.2 b hb, datumAt, hs, number_eq, bitGroup_eq, Int.toNat_natCast]
  | .struct nm ms, par, n, off, s, r, ov, hn, h, hs => by
    simp only [sizeTy] at hn
    simp only [DTy.toTy, readTy] at h
    split at h
    · rename_i fs s' hm
      simp only [Except.ok.injEq, Prod.mk.injEq] at h
      obtain ⟨rfl, rfl⟩ := h
      obtain ⟨h1, h2⟩ := read_slots_members fe ver ctx payload since ms [] fs off s s' hm hs
      obtain ⟨h3, h4⟩ := h2 n hn
      refine ⟨h3, h4, _, rfl, ?_⟩
      intro x hx hv
      exact h1 x (by simpa [slotsTy] using hx) hv
    · cases h
  | .array _ _, par, n, off, s, r, ov, hn, h, hs => by simp [sizeTy] at hn
  | .nArray _ _, par, n, off, s, r, ov, hn, h, hs => by simp [sizeTy] at hn
  | .xArray _ _, par, n, off, s, r, ov, hn, h, hs => by simp [sizeTy] at hn
  | .selective _ _, par, n, off, s, r, ov, hn, h, hs => by simp [sizeTy] at hn
theorem read_slots_members (fe : PyErr) (ver : Version) (ctx : DCtx) (payload : Bytes) (since : List Version) :
    ∀ (ms : DMembers) (acc fs : Fields) (off : Nat) (s r : Bytes),
    readMembers fe (some ver) ctx ms.toMembers acc s = .ok (fs, r) → payload.drop off = s →
    (∀ x ∈ slotsMembers since off ms, (∀ m ∈ x.since, versionOk (some ver) (some m) = true) →
      valueAt (.struct fs) x.slot.path = some (datumAt payload x.slot)) ∧
    ∀ n, sizeMembers ms = some n → n ≤ s.length ∧ r = s.drop n
  | .nil, acc, fs, off, s, r, h, hs => by
    simp only [DMembers.toMembers, readMembers, Except.ok.injEq, Prod.mk.injEq] at h
    refine ⟨by simp [slotsMembers], ?_⟩
    intro n hn
    simp only [sizeMembers, Option.some.injEq] at hn
    subst hn
    exact ⟨by omega, by simp [h.2]⟩
  | .cons name version condition t rest, acc, fs, off, s, r, h, hs => by
    simp only [DMembers.toMembers, readMembers] at h
    by_cases hv : versionOk (some ver) version = true
    · rw [if_pos hv] at h
      cases condition with
      | some c =>
        exact ⟨by simp [slotsMembers], by simp [sizeMembers]⟩
      | none =>
        simp only [Option.map_none] at h
        cases hr : readTy fe (some ver) ctx (some (.struct acc)) t.toTy s with
        | error e => rw [hr] at h; cases h
        | ok z =>
          obtain ⟨ov, s'⟩ := z
          rw [hr] at h
          cases hz : sizeTy t with
          | none =>
            refine ⟨?_, ?_⟩
            · simp [slotsMembers, hz]
            · intro n hn
              simp [sizeMembers, hz] at hn
          | some k =>
            obtain ⟨h1, h2, v, rfl, h3⟩ := read_slots_ty fe ver ctx payload (version.toList ++ since) t _ k off s s' ov hz hr hs
            simp only at h
            have hs' : payload.drop (off + k) = s' := by
              rw [h2, ← hs, List.drop_drop]
            obtain ⟨h4, h5⟩ := read_slots_members fe ver ctx payload (version.toList ++ since) rest _ fs (off + k) s' r h hs'
            refine ⟨?_, ?_⟩
            · intro x hx hxv
              simp only [slotsMembers] at hx
              split at hx
              · simp at hx
              · rename_i hc
                simp only [hz, List.mem_append, List.mem_map] at hx
                rcases hx with ⟨y, hy, rfl⟩ | hx
                · simp only [Option.isSome_none, Bool.false_or, decide_eq_true_eq] at hc
                  simp only [PSlot.within, valueAt]
                  rw [read_lookup name rest _ _ _ _ h hc, lookup_setField_self]
                  exact h3 y hy hxv
                · exact h4 x hx hxv
            · intro n hn
              simp only [sizeMembers] at hn
              split at hn
              · cases hn
              · cases hq : sizeMembers rest with
                | none => simp [hz, hq] at hn
                | some b =>
                  simp only [hz, hq, Option.some.injEq] at hn
                  subst hn
                  obtain ⟨h6, h7⟩ := h5 b hq
                  rw [h2, List.drop_drop] at h7
                  rw [h2, List.length_drop] at h6
                  exact ⟨by omega, h7⟩
    · refine ⟨?_, ?_⟩
      · intro x hx hxv
        exfalso
        cases version with
        | none => simp [versionOk] at hv
        | some m =>
          apply hv
          apply hxv
          simp only [slotsMembers] at hx
          split at hx
          · simp at hx
          · split at hx
            · simp at hx
            · simp only [List.mem_append, List.mem_map] at hx
              have hm : m ∈ (some m).toList ++ since := by simp
              rcases hx with ⟨y, hy, rfl⟩ | hx
              · exact since_ty _ t off y hy m hm
              · exact since_members _ rest _ x hx m hm
      · intro n hn
        cases version with
        | none => simp [versionOk] at hv
        | some m => simp [sizeMembers] at hn
end

/-! ### Versions -/

theorem version_trans : ∀ (a b c : Version), a.lt b = false → b.lt c = false → a.lt c = false
  | a, b, [], _, _ => by simp [Version.lt]
  | a, [], c :: cs, _, h => by simp [Version.lt] at h
  | [], b :: bs, c :: cs, h, _ => by simp [Version.lt] at h
  | a :: as, b :: bs, c :: cs, h1, h2 => by
    simp only [Version.lt] at h1 h2 ⊢
    split at h1
    · cases h1
    · split at h2
      · cases h2
      · rw [if_neg (by omega)]
        split
        · rfl
        · rw [if_neg (by omega)] at h1
          rw [if_neg (by omega)] at h2
          exact version_trans as bs cs h1 h2

/-! ### Sizes for a version -/

/-- Size of the members in a document of version `ver`. -/
def sizeAt (ver : Version) : DMembers → Option Nat
  | .nil => some 0
  | .cons _ version condition t rest =>
    if condition.isSome then none
    else if versionOk (some ver) version = false then sizeAt ver rest
    else
      match sizeTy t, sizeAt ver rest with
      | some a, some b => some (a + b)
      | _, _ => none

mutual
/-- Enough bytes are read. -/
theorem read_enough_ty (fe : PyErr) (ver : Version) (ctx : DCtx) : ∀ (t : DTy) (par : Option (Value PVal)) (n : Nat) (s : Bytes),
    sizeTy t = some n → n ≤ s.length → ∃ v, readTy fe (some ver) ctx par t.toTy s = .ok (some v, s.drop n)
  | .prim p, par, n, s, hn, h => by
    simp only [sizeTy] at hn
    obtain ⟨v, hv⟩ := prim_size p n hn s h
    exact ⟨.leaf v, by simp only [DTy.toTy, readTy, hv, leafResult]⟩
  | .flags f, par, n, s, hn, h => by
    simp only [sizeTy, Option.some.injEq] at hn
    subst hn
    exact ⟨_, by simp only [DTy.toTy, readTy, PTy.read, int_read f.base s h, bind, Except.bind, pure, Except.pure, Except.map, leafResult]; rfl⟩
  | .struct nm ms, par, n, s, hn, h => by
    simp only [sizeTy] at hn
    obtain ⟨fs, hf⟩ := read_enough_members fe ver ctx ms [] n s hn h
    exact ⟨.struct fs, by simp only [DTy.toTy, readTy, hf]⟩
  | .array _ _, par, n, s, hn, h => by simp [sizeTy] at hn
  | .nArray _ _, par, n, s, hn, h => by simp [sizeTy] at hn
  | .xArray _ _, par, n, s, hn, h => by simp [sizeTy] at hn
  | .selective _ _, par, n, s, hn, h => by simp [sizeTy] at hn
theorem read_enough_members (fe : PyErr) (ver : Version) (ctx : DCtx) : ∀ (ms : DMembers) (acc : Fields) (n : Nat) (s : Bytes),
    sizeMembers ms = some n → n ≤ s.length → ∃ fs, readMembers fe (some ver) ctx ms.toMembers acc s = .ok (fs, s.drop n)
  | .nil, acc, n, s, hn, h => by
    simp only [sizeMembers, Option.some.injEq] at hn
    subst hn
    exact ⟨acc, by simp [DMembers.toMembers, readMembers]⟩
  | .cons name version condition t rest, acc, n, s, hn, h => by
    simp only [sizeMembers] at hn
    split at hn
    · cases hn
    · rename_i hc
      simp only [Bool.or_eq_true, not_or, Bool.not_eq_true, Option.isSome_eq_false_iff, Option.isNone_iff_eq_none] at hc
      obtain ⟨rfl, rfl⟩ := hc
      cases hz : sizeTy t with
      | none => simp [hz] at hn
      | some a =>
        cases hq : sizeMembers rest with
        | none => simp [hz, hq] at hn
        | some b =>
          simp only [hz, hq, Option.some.injEq] at hn
          subst hn
          obtain ⟨v, hv⟩ := read_enough_ty fe ver ctx t (some (.struct acc)) a s hz (by omega)
          obtain ⟨fs, hf⟩ := read_enough_members fe ver ctx rest (setField name v acc) b (s.drop a) hq (by rw [List.length_drop]; omega)
          refine ⟨fs, ?_⟩
          simp only [DMembers.toMembers, readMembers, versionOk, if_true, Option.map_none, hv]
          rw [hf, List.drop_drop]
end

theorem read_at (fe : PyErr) (ver : Version) (ctx : DCtx) : ∀ (ms : DMembers) (acc : Fields) (n : Nat) (s : Bytes),
    sizeAt ver ms = some n →
    (n ≤ s.length → ∃ fs, readMembers fe (some ver) ctx ms.toMembers acc s = .ok (fs, s.drop n)) ∧
    ∀ fs r, readMembers fe (some ver) ctx ms.toMembers acc s = .ok (fs, r) → n ≤ s.length ∧ r = s.drop n
  | .nil, acc, n, s, hn => by
    simp only [sizeAt, Option.some.injEq] at hn
    subst hn
    refine ⟨fun _ => ⟨acc, by simp [DMembers.toMembers, readMembers]⟩, ?_⟩
    intro fs r h
    simp only [DMembers.toMembers, readMembers, Except.ok.injEq, Prod.mk.injEq] at h
    exact ⟨by omega, by simp [h.2]⟩
  | .cons name version condition t rest, acc, n, s, hn => by
    simp only [sizeAt] at hn
    cases condition with
    | some c => simp at hn
    | none =>
      simp only [Option.isSome_none, Bool.false_eq_true, if_false] at hn
      simp only [DMembers.toMembers, readMembers, Option.map_none]
      cases hv : versionOk (some ver) version with
      | false =>
        simp only [hv, if_true] at hn
        simp only [Bool.false_eq_true, if_false]
        exact read_at fe ver ctx rest acc n s hn
      | true =>
        simp only [hv, Bool.true_eq_false, if_false] at hn
        simp only [if_true]
        cases hz : sizeTy t with
        | none => simp [hz] at hn
        | some a =>
          cases hq : sizeAt ver rest with
          | none => simp [hz, hq] at hn
          | some b =>
            simp only [hz, hq, Option.some.injEq] at hn
            subst hn
            refine ⟨?_, ?_⟩
            · intro h
              obtain ⟨v, hv⟩ := read_enough_ty fe ver ctx t (some (.struct acc)) a s hz (by omega)
              obtain ⟨fs, hf⟩ := (read_at fe ver ctx rest (setField name v acc) b (s.drop a) hq).1 (by rw [List.length_drop]; omega)
              refine ⟨fs, ?_⟩
              simp only [hv]
              rw [hf, List.drop_drop]
            · intro fs r h
              cases hr : readTy fe (some ver) ctx (some (.struct acc)) t.toTy s with
              | error e => rw [hr] at h; cases h
              | ok z =>
                obtain ⟨ov, s'⟩ := z
                rw [hr] at h
                obtain ⟨h1, h2, v, rfl, -⟩ := read_slots_ty fe ver ctx s [] t _ a 0 s s' ov hz hr (by simp)
                simp only at h
                obtain ⟨h3, h4⟩ := (read_at fe ver ctx rest _ b s' hq).2 fs r h
                rw [h2, List.drop_drop] at h4
                rw [h2, List.length_drop] at h3
                exact ⟨by omega, h4⟩

/-! ### The classes of a model -/

/-- Size of the members of classes. -/
def sizeClasses : List String → Option Nat
  | [] => some 0
  | c :: cs =>
    match sizeMembers (membersOf c), sizeClasses cs with
    | some a, some b => some (a + b)
    | _, _ => none

/-- Slots of the members of classes. -/
def slotsClasses (off : Nat) : List String → List PSlot
  | [] => []
  | c :: cs =>
    slotsMembers [] off (membersOf c) ++
      match sizeMembers (membersOf c) with
      | some n => slotsClasses (off + n) cs
      | none => []

/-- Size of the members of classes for a version. -/
def sizeClassesAt (ver : Version) : List String → Option Nat
  | [] => some 0
  | c :: cs =>
    match sizeAt ver (membersOf c), sizeClassesAt ver cs with
    | some a, some b => some (a + b)
    | _, _ => none

theorem sizeClasses_snoc (c : String) : ∀ (cs : List String) (n : Nat), sizeClasses (cs ++ [c]) = some n →
    ∃ a b, sizeClasses cs = some a ∧ sizeMembers (membersOf c) = some b ∧ n = a + b
  | [], n, h => by
    simp only [List.nil_append, sizeClasses] at h
    cases hq : sizeMembers (membersOf c) with
    | none => simp [hq] at h
    | some b => simp [hq] at h; exact ⟨0, b, rfl, rfl, by omega⟩
  | d :: ds, n, h => by
    simp only [List.cons_append, sizeClasses] at h
    cases hd : sizeMembers (membersOf d) with
    | none => simp [hd] at h
    | some x =>
      cases hq : sizeClasses (ds ++ [c]) with
      | none => simp [hd, hq] at h
      | some y =>
        obtain ⟨a, b, h1, h2, h3⟩ := sizeClasses_snoc c ds y hq
        simp only [hd, hq, Option.some.injEq] at h
        exact ⟨x + a, b, by simp [sizeClasses, hd, h1], h2, by omega⟩

theorem sizeClassesAt_snoc (ver : Version) (c : String) : ∀ (cs : List String) (n : Nat), sizeClassesAt ver (cs ++ [c]) = some n →
    ∃ a b, sizeClassesAt ver cs = some a ∧ sizeAt ver (membersOf c) = some b ∧ n = a + b
  | [], n, h => by
    simp only [List.nil_append, sizeClassesAt] at h
    cases hq : sizeAt ver (membersOf c) with
    | none => simp [hq] at h
    | some b => simp [hq] at h; exact ⟨0, b, rfl, rfl, by omega⟩
  | d :: ds, n, h => by
    simp only [List.cons_append, sizeClassesAt] at h
    cases hd : sizeAt ver (membersOf d) with
    | none => simp [hd] at h
    | some x =>
      cases hq : sizeClassesAt ver (ds ++ [c]) with
      | none => simp [hd, hq] at h
      | some y =>
        obtain ⟨a, b, h1, h2, h3⟩ := sizeClassesAt_snoc ver c ds y hq
        simp only [hd, hq, Option.some.injEq] at h
        exact ⟨x + a, b, by simp [sizeClassesAt, hd, h1], h2, by omega⟩

theorem slotsClasses_snoc (c : String) : ∀ (cs : List String) (off : Nat) (x : PSlot), x ∈ slotsClasses off (cs ++ [c]) →
    x ∈ slotsClasses off cs ∨ ∃ n, sizeClasses cs = some n ∧ x ∈ slotsMembers [] (off + n) (membersOf c)
  | [], off, x, h => by
    simp only [List.nil_append, slotsClasses, List.mem_append] at h
    rcases h with h | h
    · exact Or.inr ⟨0, rfl, h⟩
    · split at h <;> simp at h
  | d :: ds, off, x, h => by
    simp only [List.cons_append, slotsClasses, List.mem_append] at h ⊢
    rcases h with h | h
    · exact Or.inl (Or.inl h)
    · cases hd : sizeMembers (membersOf d) with
      | none => simp [hd] at h
      | some n =>
        simp only [hd] at h
        rcases slotsClasses_snoc c ds _ x h with h | ⟨m, h1, h2⟩
        · exact Or.inl (Or.inr h)
        · exact Or.inr ⟨n + m, by simp [sizeClasses, hd, h1], by rwa [Nat.add_assoc] at h2⟩

theorem contentUpdate_lookup (k : String) : ∀ (more content : Fields), k ∉ more.map (·.1) →
    (contentUpdate content more).lookup k = content.lookup k
  | [], content, _ => rfl
  | (n, v) :: more, content, h => by
    simp only [List.map_cons, List.mem_cons, not_or] at h
    have := contentUpdate_lookup k more (setField n v content) h.2
    rw [lookup_setField_ne _ _ _ h.1] at this
    exact this

theorem path_members (since : List Version) : ∀ (ms : DMembers) (off : Nat), ∀ x ∈ slotsMembers since off ms,
    ∃ k p, x.slot.path = k :: p ∧ k ∈ ms.names
  | .nil, off, x, hx => by simp [slotsMembers] at hx
  | .cons name version condition t rest, off, x, hx => by
    simp only [slotsMembers] at hx
    split at hx
    · simp at hx
    · split at hx
      · simp at hx
      · simp only [List.mem_append, List.mem_map] at hx
        rcases hx with ⟨y, hy, rfl⟩ | hx
        · exact ⟨name, y.slot.path, rfl, by simp [DMembers.names]⟩
        · obtain ⟨k, p, h1, h2⟩ := path_members _ rest _ x hx
          exact ⟨k, p, h1, by simp [DMembers.names, h2]⟩

theorem path_classes : ∀ (cs : List String) (off : Nat), ∀ x ∈ slotsClasses off cs,
    ∃ k p, x.slot.path = k :: p ∧ ∃ c ∈ cs, k ∈ (membersOf c).names
  | [], off, x, hx => by simp [slotsClasses] at hx
  | c :: cs, off, x, hx => by
    simp only [slotsClasses, List.mem_append] at hx
    rcases hx with hx | hx
    · obtain ⟨k, p, h1, h2⟩ := path_members _ _ _ x hx
      exact ⟨k, p, h1, c, by simp, h2⟩
    · split at hx
      · obtain ⟨k, p, h1, d, hd, h2⟩ := path_classes cs _ x hx
        exact ⟨k, p, h1, d, by simp [hd], h2⟩
      · simp at hx

theorem reads_slots {ver : Version} {parent : Option (String × Fields)} {cs : List String} {s r : Bytes} {content : Fields}
    (h : Reads (directRead ver parent) contentUpdate cs s content r)
    (hd : (cs.flatMap fun c => (membersOf c).names).Nodup) :
    (∀ x ∈ slotsClasses 0 cs, (∀ m ∈ x.since, versionOk (some ver) (some m) = true) →
      valueAt (.struct content) x.slot.path = some (datumAt s x.slot)) ∧
    ∀ n, sizeClasses cs = some n → n ≤ s.length ∧ r = s.drop n := by
  induction h with
  | @one c s v r h =>
    obtain ⟨h1, h2⟩ := read_slots_members _ ver _ s [] (membersOf c) [] v 0 s r h (by simp)
    refine ⟨?_, ?_⟩
    · intro x hx hv
      rcases slotsClasses_snoc c [] 0 x hx with hx | ⟨n, hn, hx⟩
      · simp [slotsClasses] at hx
      · simp only [sizeClasses, Option.some.injEq] at hn
        subst hn
        exact h1 x hx hv
    · intro n hn
      obtain ⟨a, b, h3, h4, rfl⟩ := sizeClasses_snoc c [] n hn
      simp only [sizeClasses, Option.some.injEq] at h3
      subst h3
      simpa using h2 b h4
  | @snoc cs c s v w r r' h1 h2 ih =>
    rw [List.flatMap_append, List.nodup_append] at hd
    obtain ⟨ih1, ih2⟩ := ih hd.1
    have hw := (directRead_ok h2).2
    refine ⟨?_, ?_⟩
    · intro x hx hv
      rcases slotsClasses_snoc c cs 0 x hx with hx | ⟨n, hn, hx⟩
      · obtain ⟨k, p, hp, d, hd1, hd2⟩ := path_classes _ _ x hx
        have := ih1 x hx hv
        rw [hp] at this ⊢
        simp only [valueAt] at this ⊢
        rw [contentUpdate_lookup]
        · exact this
        · intro hk
          exact hd.2.2 k (List.mem_flatMap.2 ⟨d, hd1, hd2⟩) k (by simpa using hw k hk) rfl
      · obtain ⟨h3, h4⟩ := ih2 n hn
        obtain ⟨h5, -⟩ := read_slots_members _ ver _ s [] (membersOf c) [] w (0 + n) r r' h2 (by rw [h4]; simp)
        have := h5 x hx hv
        obtain ⟨k, p, hp, hk⟩ := path_members _ _ _ x hx
        have hv' := reads_names h1
        have hkv : k ∉ v.map (·.1) := by
          intro hkv
          obtain ⟨d, hd1, hd2⟩ := hv'.2 k hkv
          exact hd.2.2 k (List.mem_flatMap.2 ⟨d, hd1, hd2⟩) k (by simpa using hk) rfl
        rw [contentUpdate_new]
        · rw [hp] at this ⊢
          simp only [valueAt] at this ⊢
          have hl : (v ++ w).lookup k = w.lookup k := by
            rw [List.lookup_append]
            have : v.lookup k = none := by
              rw [List.lookup_eq_none_iff]
              intro p hp
              simp only [bne_iff_ne, ne_eq]
              intro e
              exact hkv (e ▸ List.mem_map_of_mem hp)
            rw [this]; rfl
          rw [hl]
          exact this
        · rw [List.map_append, List.nodup_append]
          refine ⟨hv'.1, read_nodup _ ⟨some ver, some parent⟩ _ _ _ _ _ h2 (by simp), ?_⟩
          intro a ha b hb e
          subst e
          obtain ⟨d, hd1, hd2⟩ := hv'.2 a ha
          exact hd.2.2 a (List.mem_flatMap.2 ⟨d, hd1, hd2⟩) a (by simpa using hw a hb) rfl
    · intro n hn
      obtain ⟨a, b, h3, h4, rfl⟩ := sizeClasses_snoc c cs n hn
      obtain ⟨h5, h6⟩ := ih2 a h3
      obtain ⟨-, h7⟩ := read_slots_members _ ver _ r [] (membersOf c) [] w 0 r r' h2 (by simp)
      obtain ⟨h8, h9⟩ := h7 b h4
      rw [h6, List.drop_drop] at h9
      rw [h6, List.length_drop] at h8
      exact ⟨by omega, h9⟩

theorem reads_size {ver : Version} {parent : Option (String × Fields)} {cs : List String} {s r : Bytes} {content : Fields}
    (h : Reads (directRead ver parent) contentUpdate cs s content r) :
    ∀ n, sizeClassesAt ver cs = some n → n ≤ s.length ∧ r = s.drop n := by
  induction h with
  | @one c s v r h =>
    intro n hn
    obtain ⟨a, b, h3, h4, rfl⟩ := sizeClassesAt_snoc ver c [] n hn
    simp only [sizeClassesAt, Option.some.injEq] at h3
    subst h3
    simpa using (read_at _ ver _ (membersOf c) [] b s h4).2 v r h
  | @snoc cs c s v w r r' h1 h2 ih =>
    intro n hn
    obtain ⟨a, b, h3, h4, rfl⟩ := sizeClassesAt_snoc ver c cs n hn
    obtain ⟨h5, h6⟩ := ih a h3
    obtain ⟨h8, h9⟩ := (read_at _ ver _ (membersOf c) [] b r h4).2 w r' h2
    rw [h6, List.drop_drop] at h9
    rw [h6, List.length_drop] at h8
    exact ⟨by omega, h9⟩

theorem reads_enough (ver : Version) (parent : Option (String × Fields)) : ∀ (k : Nat) (cs : List String), cs.length = k + 1 →
    ∀ (n : Nat) (s : Bytes), sizeClassesAt ver cs = some n → n ≤ s.length →
    ∃ content, Reads (directRead ver parent) contentUpdate cs s content (s.drop n)
  | 0, cs, hk, n, s, hn, h => by
    match cs, hk with
    | [c], _ =>
      obtain ⟨a, b, h3, h4, rfl⟩ := sizeClassesAt_snoc ver c [] n hn
      simp only [sizeClassesAt, Option.some.injEq] at h3
      subst h3
      obtain ⟨fs, hf⟩ := (read_at .keyError ver ⟨some ver, some parent⟩ (membersOf c) [] b s h4).1 (by omega)
      exact ⟨fs, .one (by rw [Nat.zero_add]; exact hf)⟩
  | k + 1, cs, hk, n, s, hn, h => by
    have hne : cs ≠ [] := by intro e; simp [e] at hk
    obtain ⟨ds, c, rfl⟩ : ∃ ds c, cs = ds ++ [c] := ⟨cs.dropLast, cs.getLast hne, (List.dropLast_concat_getLast hne).symm⟩
    obtain ⟨a, b, h3, h4, rfl⟩ := sizeClassesAt_snoc ver c ds n hn
    obtain ⟨v, hv⟩ := reads_enough ver parent k ds (by simp at hk; omega) a s h3 (by omega)
    obtain ⟨w, hw⟩ := (read_at .keyError ver ⟨some ver, some parent⟩ (membersOf c) [] b (s.drop a) h4).1
      (by rw [List.length_drop]; omega)
    refine ⟨contentUpdate v w, .snoc hv ?_⟩
    rw [List.drop_drop] at hw
    exact hw

/-! ### The tables -/

/-- The newest version of a slot. -/
def PSlot.newest (p : PSlot) : Version := p.since.head?.getD []

theorem table_slots : ∀ t ∈ layoutTable,
    (slotsClasses 0 (memberClasses t.1)).map (fun p => (p.newest, p.slot)) = t.2 ∧
    ∀ p ∈ slotsClasses 0 (memberClasses t.1), ∀ m ∈ p.since, p.newest.lt m = false := by
  decide +kernel

/-- Add to a version. -/
def addFor (v : Version) (k : Nat) : List (Version × Nat) → List (Version × Nat)
  | [] => [(v, k)]
  | (w, j) :: l => if w = v then (v, k + j) :: l else (v, k) :: (w, j) :: l

theorem sizeFor_add (ver v : Version) (k n : Nat) (l : List (Version × Nat)) :
    sizeFor ver n (addFor v k l) = (if ver.lt v then 0 else k) + sizeFor ver n l := by
  unfold addFor
  split
  · cases h : ver.lt v <;> simp [sizeFor, h]; omega
  · rename_i w j l
    split
    · rename_i e
      subst e
      cases h : ver.lt w <;> simp [sizeFor, h]; omega
    · cases h : ver.lt v <;> simp [sizeFor, h, List.filter_cons]; omega

/-- Size of the members, and what versions add. -/
def sizesOf : DMembers → Option (Nat × List (Version × Nat))
  | .nil => some (0, [])
  | .cons _ version condition t rest =>
    if condition.isSome then none
    else
      match sizeTy t, sizesOf rest with
      | some a, some (n, l) =>
        match version with
        | none => some (a + n, l)
        | some v => some (n, addFor v a l)
      | _, _ => none

theorem sizesOf_at (ver : Version) : ∀ (ms : DMembers) (n : Nat) (l : List (Version × Nat)), sizesOf ms = some (n, l) →
    sizeAt ver ms = some (sizeFor ver n l)
  | .nil, n, l, h => by
    simp only [sizesOf, Option.some.injEq, Prod.mk.injEq] at h
    obtain ⟨rfl, rfl⟩ := h
    rfl
  | .cons name version condition t rest, n, l, h => by
    simp only [sizesOf] at h
    split at h
    · cases h
    · rename_i hc
      split at h
      · rename_i a n' l' hz hq
        have ih := sizesOf_at ver rest n' l' hq
        simp only [sizeAt, if_neg hc, ih, hz]
        split at h
        · simp only [Option.some.injEq, Prod.mk.injEq] at h
          obtain ⟨rfl, rfl⟩ := h
          simp [versionOk, sizeFor, Nat.add_assoc]
        · rename_i v
          simp only [Option.some.injEq, Prod.mk.injEq] at h
          obtain ⟨rfl, rfl⟩ := h
          rw [sizeFor_add]
          cases hv : ver.lt v <;> simp [versionOk, hv]
      · cases h

/-- Size of the members of classes, and what versions add. -/
def sizesClasses : List String → Option (Nat × List (Version × Nat))
  | [] => some (0, [])
  | c :: cs =>
    match sizesOf (membersOf c), sizesClasses cs with
    | some (a, l), some (b, l') => some (a + b, l ++ l')
    | _, _ => none

theorem sizesClasses_at (ver : Version) : ∀ (cs : List String) (n : Nat) (l : List (Version × Nat)), sizesClasses cs = some (n, l) →
    sizeClassesAt ver cs = some (sizeFor ver n l)
  | [], n, l, h => by
    simp only [sizesClasses, Option.some.injEq, Prod.mk.injEq] at h
    obtain ⟨rfl, rfl⟩ := h
    rfl
  | c :: cs, n, l, h => by
    simp only [sizesClasses] at h
    split at h
    · rename_i a l1 b l2 h1 h2
      simp only [Option.some.injEq, Prod.mk.injEq] at h
      obtain ⟨rfl, rfl⟩ := h
      simp only [sizeClassesAt, sizesOf_at ver _ _ _ h1, sizesClasses_at ver _ _ _ h2]
      simp only [sizeFor, List.filter_append, List.map_append, List.sum_append]
      congr 1
      omega
    · cases h

theorem table_sizes : ∀ t ∈ sizeTable, sizesClasses (memberClasses t.1) = some t.2 := by
  decide +kernel

end Hwp
