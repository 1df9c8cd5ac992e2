/- Lemmas about the primitive and derived types. -/
import Verif.Spec.Dataio
import Verif.Proofs.Bytes
import Verif.Proofs.Utf16
set_option linter.unusedSimpArgs false
namespace Hwp
open Spec

/-! ### Integers -/

theorem fmtInfo_eq (t : Prim) : fmtInfo t.binfmt = (width t, signed t) := by
  cases t <;> decide

theorem width_pos (t : Prim) : 0 < width t := by cases t <;> decide

theorem unpack_encode (t : Prim) (v : Int) (h : InRange t v) :
    structUnpack t.binfmt (encodeInt t v) = .ok v := by
  have hn : leNat (encodeInt t v) = (v % 2 ^ (8 * width t)).toNat := by
    unfold encodeInt
    rw [leNat_leBytes]
    cases t <;> simp [width] <;> omega
  have hl : (encodeInt t v).length = width t := by simp [encodeInt]
  unfold structUnpack
  rw [fmtInfo_eq]
  simp only [hl, ne_eq, not_true, if_false, hn]
  unfold InRange at h
  cases t <;> simp [width, signed] at h ⊢ <;> (try split) <;> (try simp) <;> omega

theorem encode_unpack (t : Prim) (d : Bytes) (v : Int) (h : structUnpack t.binfmt d = .ok v) :
    InRange t v ∧ encodeInt t v = d := by
  unfold structUnpack at h
  rw [fmtInfo_eq] at h
  simp only at h
  split at h
  · simp at h
  · rename_i hl
    have hl : d.length = width t := by omega
    have hlt := leNat_lt d
    have hb := leBytes_leNat d
    rw [hl] at hlt hb
    have hv : (v % 2 ^ (8 * width t)).toNat = leNat d ∧ InRange t v := by
      unfold InRange
      cases t <;> simp [width, signed] at h hlt ⊢ <;> (try split at h) <;> (try simp at h) <;> omega
    refine ⟨hv.2, ?_⟩
    unfold encodeInt
    rw [hv.1, hb]

/-! ### Bit groups -/

theorem bitGroup_testBit (lsb msb v i : Nat) :
    (bitGroup lsb msb v).testBit i = (v.testBit (lsb + i) && decide (i < msb + 1 - lsb)) := by
  simp [bitGroup, Nat.testBit_and, Nat.testBit_shiftRight, Nat.testBit_two_pow_sub_one, Bool.and_comm]

theorem bitsNumber_testBit (v lo n i : Nat) :
    (bitsNumber v lo n).testBit i = (v.testBit (lo + i) && decide (i < n)) := by
  induction n generalizing lo i with
  | zero => simp [bitsNumber]
  | succ n ih =>
    unfold bitsNumber
    cases i with
    | zero =>
      rw [Nat.testBit_zero]
      by_cases hb : v.testBit lo <;> simp [hb] <;> omega
    | succ i =>
      have : ((if v.testBit lo then 1 else 0) + 2 * bitsNumber v (lo + 1) n) / 2 =
          bitsNumber v (lo + 1) n := by split <;> omega
      rw [Nat.testBit_succ, this, ih]
      have : lo + 1 + i = lo + (i + 1) := by omega
      rw [this]
      congr 1
      simp

/-! ### Flags -/

theorem parseFlagsArgs_form (f : FlagForm) (rest : List FlagArg) :
    parseFlagGroup (f.args ++ rest) = .ok (f.group, rest) := by
  cases f <;> simp [FlagForm.args, FlagForm.group, parseFlagGroup, parseFlagTail]

theorem parseFlagGroup_form {args : List FlagArg} {g : FlagGroup} {rest : List FlagArg}
    (h : parseFlagGroup args = .ok (g, rest)) : ∃ f : FlagForm, args = f.args ++ rest ∧ g = f.group := by
  have tail : ∀ l m as, parseFlagTail l m as = .ok (g, rest) →
      (∃ n, as = .name n :: rest ∧ g = ⟨n, l, m, none⟩) ∨
      (∃ t n, as = .type t :: .name n :: rest ∧ g = ⟨n, l, m, some t⟩) := by
    intro l m as h
    unfold parseFlagTail at h
    split at h <;> try (simp at h; done)
    · simp at h; left; exact ⟨_, by rw [h.2], h.1.symm⟩
    · split at h
      · simp at h; right; exact ⟨_, _, by rw [h.2], h.1.symm⟩
      · simp at h
  unfold parseFlagGroup at h
  split at h
  · split at h
    · simp at h
    · rename_i l _ m as
      rcases tail _ _ _ h with ⟨n, h1, h2⟩ | ⟨t, n, h1, h2⟩
      · exact ⟨.range l m n, by rw [h1]; rfl, h2⟩
      · exact ⟨.typedRange l m t n, by rw [h1]; rfl, h2⟩
    · simp at h
    · rename_i l as _ _ _ _
      rcases tail _ _ _ h with ⟨n, h1, h2⟩ | ⟨t, n, h1, h2⟩
      · exact ⟨.bit l n, by rw [h1]; rfl, h2⟩
      · exact ⟨.typedBit l t n, by rw [h1]; rfl, h2⟩
  · simp at h

theorem parseFlagGroup_error {args : List FlagArg} {e : PyErr}
    (h : parseFlagGroup args = .error e) : e = .assertionError := by
  have tail : ∀ l m as, parseFlagTail l m as = .error e → e = .assertionError := by
    intro l m as h
    unfold parseFlagTail at h
    split at h <;> try (simp at h; done)
    · simpa using h.symm
    · simpa using h.symm
    · simpa using h.symm
    · split at h
      · simp at h
      · simpa using h.symm
  unfold parseFlagGroup at h
  split at h
  · split at h
    · simpa using h.symm
    · exact tail _ _ _ h
    · simpa using h.symm
    · exact tail _ _ _ h
  · simpa using h.symm

theorem parseFlagsArgs_cons {a : FlagArg} {as : List FlagArg} :
    parseFlagsArgs (a :: as) = (match parseFlagGroup (a :: as) with
      | .error e => .error e
      | .ok (g, rest) => (parseFlagsArgs rest).map (g :: ·)) := by
  rw [parseFlagsArgs]
  split
  · rename_i e h; rw [h]
  · rename_i g rest h; rw [h]; simp only; cases parseFlagsArgs rest <;> rfl

theorem flagForm_args_cons (f : FlagForm) : ∃ a as, f.args = a :: as := by
  cases f <;> exact ⟨_, _, rfl⟩

theorem parseFlagsArgs_forms (fs : List FlagForm) :
    parseFlagsArgs (fs.flatMap FlagForm.args) = .ok (fs.map FlagForm.group) := by
  induction fs with
  | nil => simp [parseFlagsArgs]
  | cons f fs ih =>
    obtain ⟨a, as, ha⟩ := flagForm_args_cons f
    have h := parseFlagsArgs_form f (fs.flatMap FlagForm.args)
    rw [List.flatMap_cons]
    rw [ha] at h ⊢
    rw [List.cons_append, parseFlagsArgs_cons, ← List.cons_append, h]
    simp [ih, Except.map]

theorem parseFlagsArgs_ok (args : List FlagArg) : ∀ gs, parseFlagsArgs args = .ok gs →
    ∃ fs : List FlagForm, args = fs.flatMap FlagForm.args ∧ gs = fs.map FlagForm.group := by
  induction hk : args.length using Nat.strongRecOn generalizing args with
  | ind k ih =>
    intro gs h
    cases args with
    | nil =>
      simp [parseFlagsArgs] at h; subst h; exact ⟨[], rfl, rfl⟩
    | cons a as =>
      rw [parseFlagsArgs_cons] at h
      split at h
      · simp at h
      · rename_i g rest hg
        cases hr : parseFlagsArgs rest with
        | error e => rw [hr] at h; simp [Except.map] at h
        | ok gs' =>
          rw [hr] at h; simp [Except.map] at h
          obtain ⟨fs, h1, h2⟩ := ih rest.length (by have := parseFlagGroup_length hg; omega) rest rfl gs' hr
          obtain ⟨f, h3, h4⟩ := parseFlagGroup_form hg
          refine ⟨f :: fs, ?_, ?_⟩
          · rw [h3, h1]; simp
          · rw [← h, h4, h2]; simp

theorem parseFlagsArgs_error (args : List FlagArg) : ∀ e, parseFlagsArgs args = .error e →
    e = .assertionError := by
  induction hk : args.length using Nat.strongRecOn generalizing args with
  | ind k ih =>
    intro e h
    cases args with
    | nil => simp [parseFlagsArgs] at h
    | cons a as =>
      rw [parseFlagsArgs_cons] at h
      split at h
      · rename_i e' he; simp at h; subst h; exact parseFlagGroup_error he
      · rename_i g rest hg
        cases hr : parseFlagsArgs rest with
        | error e' =>
          rw [hr] at h; simp [Except.map] at h; subst h
          exact ih rest.length (by have := parseFlagGroup_length hg; omega) rest rfl _ hr
        | ok gs' => rw [hr] at h; simp [Except.map] at h

end Hwp
