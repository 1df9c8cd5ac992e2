/- Lemmas about distribution documents. -/
import Verif.Model.Distdoc
import Verif.Spec.Distdoc
import Verif.Proofs.Records
set_option linter.unusedSimpArgs false
namespace Hwp
open Spec

theorem and_32 (x : Nat) : x &&& 0xffffffff = x % 4294967296 := Nat.and_two_pow_sub_one_eq_mod x 32
theorem and_15 (x : Nat) : x &&& 0x7fff = x % 32768 := Nat.and_two_pow_sub_one_eq_mod x 15
theorem and_8 (x : Nat) : x &&& 0xff = x % 256 := Nat.and_two_pow_sub_one_eq_mod x 8
theorem and_4 (x : Nat) : x &&& 0xf = x % 16 := Nat.and_two_pow_sub_one_eq_mod x 4

theorem msRand_lcg (s k : Nat) : msRand (lcg s k) = (lcgOut s (k + 1), lcg s (k + 1)) := by
  have e : lcg s (k + 1) = (lcg s k * 214013 + 2531011) &&& 0xffffffff := by
    rw [lcg, and_32]
  unfold msRand lcgOut
  rw [← e]
  simp only [Nat.shiftRight_eq_div_pow, and_15, Nat.reducePow]

/-- Combine with a key stream from index 4 on. -/
def maskFrom (i : Nat) : Bytes → Bytes → Bytes
  | [], _ => []
  | bs, [] => bs
  | b :: bs, k :: ks => (if 4 ≤ i then b ^^^ k else b) :: maskFrom (i + 1) bs ks

/-- Runs `j` to `j + m - 1`. -/
def runsFrom (s j m : Nat) : Bytes := ((List.range' j m).map (keyRun s)).flatten

theorem keyRuns_eq (s m : Nat) : keyRuns s m = runsFrom s 0 m := by
  unfold keyRuns runsFrom; rw [List.range_eq_range']

theorem runsFrom_succ (s j m : Nat) : runsFrom s j (m + 1) = keyRun s j ++ runsFrom s (j + 1) m := by
  simp [runsFrom, List.range'_succ]

theorem runsFrom_length (s m : Nat) : ∀ j, m ≤ (runsFrom s j m).length := by
  induction m with
  | zero => intro j; omega
  | succ m ih =>
    intro j
    have := ih (j + 1)
    rw [runsFrom_succ, List.length_append, keyRun, List.length_replicate]
    omega

theorem refill_zero (s j key : Nat) : HeadSt.refill ⟨lcg s (2 * j), key, 0⟩ =
    ⟨lcg s (2 * (j + 1)), lcgOut s (2 * j + 1) % 256, lcgOut s (2 * j + 2) % 16 + 1⟩ := by
  have e : 2 * (j + 1) = 2 * j + 2 := by omega
  have e' : 2 * j + 1 + 1 = 2 * j + 2 := by omega
  rw [e]
  simp only [HeadSt.refill, if_true, msRand_lcg, and_8, and_4, e']

theorem headLoop_mask (s : Nat) (bs : Bytes) : ∀ i j key n m, bs.length ≤ m →
    headLoop ⟨lcg s (2 * j), key, n⟩ i bs =
      maskFrom i bs (List.replicate n (UInt8.ofNat key) ++ runsFrom s j m) := by
  induction bs with
  | nil => intro i j key n m _; simp [headLoop, maskFrom]
  | cons b bs ih =>
    intro i j key n m hm
    simp only [List.length_cons] at hm
    rw [headLoop]
    cases n with
    | zero =>
      obtain ⟨m, rfl⟩ : ∃ m', m = m' + 1 := ⟨m - 1, by omega⟩
      rw [refill_zero, List.replicate_zero, List.nil_append, runsFrom_succ, keyRun, List.replicate_succ,
        List.cons_append, maskFrom]
      have := ih (i + 1) (j + 1) (lcgOut s (2 * j + 1) % 256) (lcgOut s (2 * j + 2) % 16) m (by omega)
      simp only [Nat.add_sub_cancel]
      rw [this]
    | succ n =>
      have hn : ¬ n + 1 = 0 := by omega
      simp only [HeadSt.refill, hn, if_false, List.replicate_succ, List.cons_append, maskFrom,
        Nat.add_sub_cancel]
      rw [ih (i + 1) j key n m (by omega)]

theorem maskFrom_ge (bs : Bytes) : ∀ i ks, 4 ≤ i → bs.length ≤ ks.length →
    maskFrom i bs ks = List.zipWith (· ^^^ ·) bs ks := by
  induction bs with
  | nil => intro i ks _ _; simp [maskFrom]
  | cons b bs ih =>
    intro i ks hi hl
    cases ks with
    | nil => simp at hl
    | cons k ks =>
      simp only [List.length_cons] at hl
      rw [maskFrom, if_pos hi, ih (i + 1) ks (by omega) (by omega)]
      rfl

theorem headSeed_eq (d : Bytes) (h : 4 ≤ d.length) : headSeed d = leSeed d := by
  match d, h with
  | a :: b :: c :: e :: r, _ =>
    have ha := a.toNat_lt
    have hb := b.toNat_lt
    have hc := c.toNat_lt
    simp only [headSeed, leSeed, List.getD_cons_zero, List.getD_cons_succ]
    rw [Nat.or_assoc, Nat.or_assoc]
    rw [← Nat.shiftLeft_add_eq_or_of_lt (i := 8) (by omega), ← Nat.shiftLeft_add_eq_or_of_lt (i := 16),
      ← Nat.shiftLeft_add_eq_or_of_lt (i := 24)]
    · simp only [Nat.shiftLeft_eq]; omega
    · simp only [Nat.shiftLeft_eq]; omega
    · simp only [Nat.shiftLeft_eq]; omega

/-- The decoded head in terms of the key stream. -/
theorem decodeHead_eq (d : Bytes) (h : 4 ≤ d.length) :
    decodeHead d = d.take 4 ++
      List.zipWith (· ^^^ ·) (d.drop 4) ((keyRuns (leSeed d) d.length).drop 4) := by
  unfold decodeHead
  rw [headSeed_eq d h]
  have := headLoop_mask (leSeed d) d 0 0 0 0 d.length (Nat.le_refl _)
  rw [show lcg (leSeed d) (2 * 0) = leSeed d from rfl] at this
  rw [this, List.replicate_zero, List.nil_append, keyRuns_eq]
  have hl := runsFrom_length (leSeed d) d.length 0
  generalize runsFrom (leSeed d) 0 d.length = K at hl
  match d, K, h, hl with
  | a :: b :: c :: e :: r, [], _, hl => simp at hl
  | a :: b :: c :: e :: r, [_], _, hl => simp at hl
  | a :: b :: c :: e :: r, [_, _], _, hl => simp at hl
  | a :: b :: c :: e :: r, [_, _, _], _, hl => simp at hl
  | a :: b :: c :: e :: r, _ :: _ :: _ :: _ :: ks, _, hl =>
    simp only [maskFrom, List.take_succ_cons, List.take_zero, List.drop_succ_cons, List.drop_zero]
    rw [maskFrom_ge r _ ks (by omega) (by simpa using hl)]
    simp

theorem decodeHead_length (d : Bytes) : (decodeHead d).length = d.length := by
  unfold decodeHead
  generalize (⟨headSeed d, 0, 0⟩ : HeadSt) = st
  generalize 0 = i
  induction d generalizing st i with
  | nil => rfl
  | cons b bs ih => simp [headLoop, ih]

theorem zipWith_xor_twice : ∀ (xs ks : Bytes), xs.length ≤ ks.length →
    List.zipWith (· ^^^ ·) (List.zipWith (· ^^^ ·) xs ks) ks = xs
  | [], _, _ => by simp
  | x :: xs, [], h => by simp at h
  | x :: xs, k :: ks, h => by
    simp only [List.length_cons] at h
    simp only [List.zipWith_cons_cons]
    rw [zipWith_xor_twice xs ks (by omega), UInt8.xor_assoc, UInt8.xor_self, UInt8.xor_zero]

theorem leSeed_take (d d' : Bytes) (h : 4 ≤ d.length) (h' : 4 ≤ d'.length) (e : d.take 4 = d'.take 4) :
    leSeed d = leSeed d' := by
  match d, d', h, h' with
  | a :: b :: c :: f :: r, a' :: b' :: c' :: f' :: r', _, _ =>
    simp at e
    simp [leSeed, e.1, e.2.1, e.2.2.1, e.2.2.2]

theorem decodeHead_take (d : Bytes) (h : 4 ≤ d.length) : (decodeHead d).take 4 = d.take 4 := by
  rw [decodeHead_eq d h]
  have : (d.take 4).length = 4 := by simp; omega
  rw [List.take_append_of_le_length (by omega), List.take_take]
  simp

theorem decodeHead_invol (d : Bytes) (h : 4 ≤ d.length) : decodeHead (decodeHead d) = d := by
  have hl := decodeHead_length d
  have ht := decodeHead_take d h
  have e2 : (decodeHead d).drop 4 =
      List.zipWith (· ^^^ ·) (d.drop 4) ((keyRuns (leSeed d) d.length).drop 4) := by
    have hlen : (d.take 4).length = 4 := by simp; omega
    rw [decodeHead_eq d h, List.drop_append_of_le_length (by omega), List.drop_eq_nil_of_le (by omega)]
    simp
  rw [decodeHead_eq (decodeHead d) (by omega), ht, e2, hl,
    leSeed_take (decodeHead d) d (by omega) h ht, zipWith_xor_twice]
  · exact List.take_append_drop 4 d
  · have := runsFrom_length (leSeed d) d.length 0
    rw [keyRuns_eq, List.length_drop, List.length_drop]
    omega

/-! ### Block decryption -/

theorem ecb_roundtrip (enc dec : Bytes → Bytes → Bytes) (key : Bytes)
    (henc : ∀ b, b.length = 16 → (enc key b).length = 16)
    (hinv : ∀ b, b.length = 16 → dec key (enc key b) = b) :
    ∀ blocks : List Bytes, (∀ b ∈ blocks, b.length = 16) →
      ecbDecrypt dec key (ecbEncrypt enc key blocks) = .ok blocks.flatten := by
  intro blocks
  induction blocks with
  | nil => intro _; rw [ecbDecrypt]; simp [ecbEncrypt]
  | cons b bs ih =>
    intro h
    have hb := henc b (h b (by simp))
    have ih := ih (fun b hb => h b (by simp [hb]))
    have e : ecbEncrypt enc key (b :: bs) = enc key b ++ ecbEncrypt enc key bs := by simp [ecbEncrypt]
    rw [e, ecbDecrypt, if_neg, if_neg, List.drop_left' hb, List.take_left' hb, ih]
    · simp [bind, Except.bind, pure, Except.pure, hinv b (h b (by simp))]
    · simp [hb]
    · intro hn
      have := congrArg List.length hn
      simp [hb] at this

end Hwp
