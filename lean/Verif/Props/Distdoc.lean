/- Properties C41-C43: distribution documents. -/
import Verif.Proofs.Distdoc
set_option linter.unusedSimpArgs false
namespace Hwp.Props
open Hwp Hwp.Spec

/-- A head for examples: the bytes 0, 1, ..., 255. -/
def sampleHead : Bytes := (List.range 256).map UInt8.ofNat

/-! ### C41 key derivation -/

/-- C41: exactly the 256 byte heads are accepted; the digest area has 80 bytes, the
key is its first 16 bytes. -/
theorem C41_total_and_sized (payload : Bytes) :
    (payload.length = 256 → ∃ sha key, decodeHeadToSha1 payload = .ok sha ∧ sha.length = 80 ∧
      decodeHeadToKey payload = .ok key ∧ key.length = 16 ∧ key = sha.take 16) ∧
    (payload.length ≠ 256 → decodeHeadToSha1 payload = .error .valueError ∧
      decodeHeadToKey payload = .error .valueError) := by
  constructor
  · intro h
    have hoff : headSeed payload &&& 0xf ≤ 15 := Nat.and_le_right
    refine ⟨_, _, by unfold decodeHeadToSha1; rw [if_neg (by omega)], ?_, ?_, ?_, rfl⟩
    · rw [List.length_take, List.length_drop, decodeHead_length]; omega
    · unfold decodeHeadToKey decodeHeadToSha1
      rw [if_neg (by omega)]
      rfl
    · rw [List.length_take, List.length_take, List.length_drop, decodeHead_length]; omega
  · intro h
    constructor
    · unfold decodeHeadToSha1; rw [if_pos h]
    · unfold decodeHeadToKey decodeHeadToSha1; rw [if_pos h]; rfl

/-- C41: the digest area starts 4 to 19 bytes into the decoded head, at the offset
given by the low four bits of the first byte. -/
theorem C41_digest_position (payload : Bytes) (h : payload.length = 256) :
    decodeHeadToSha1 payload =
      .ok (((decodeHead payload).drop (4 + leSeed payload % 16)).take 80) := by
  unfold decodeHeadToSha1
  rw [if_neg (by omega), headSeed_eq payload (by omega), and_4]

/-- C41: the digest hidden in a head by the inverse transformation is recovered. -/
theorem C41_digest_recovered (plain : Bytes) (h : plain.length = 256) :
    decodeHeadToSha1 (decodeHead plain) = .ok ((plain.drop (4 + leSeed plain % 16)).take 80) := by
  have hl := decodeHead_length plain
  rw [C41_digest_position _ (by omega), decodeHead_invol plain (by omega),
    leSeed_take (decodeHead plain) plain (by omega) (by omega) (decodeHead_take plain (by omega))]

example : (decodeHeadToKey sampleHead).toOption.map List.length = some 16 := by decide +kernel
example : decodeHeadToKey (sampleHead ++ [0]) = .error .valueError := by decide +kernel
example : decodeHeadToSha1 (decodeHead sampleHead) = .ok ((sampleHead.drop 4).take 80) := by decide +kernel

/-! ### C42 head transformation -/

/-- C42: the transformation is an involution on all 256 byte heads and keeps the
first four bytes and the length. -/
theorem C42_involution (head : Bytes) (h : head.length = 256) :
    decodeHead (decodeHead head) = head ∧ (decodeHead head).take 4 = head.take 4 ∧
      (decodeHead head).length = 256 :=
  ⟨decodeHead_invol head (by omega), decodeHead_take head (by omega), by rw [decodeHead_length, h]⟩

/-- C42: every byte from the fifth on is combined with the key stream: runs of one
random byte, 1 to 16 times, drawn in this order from the generator. -/
theorem C42_key_stream (head : Bytes) (h : head.length = 256) :
    decodeHead head = head.take 4 ++
      List.zipWith (· ^^^ ·) (head.drop 4) ((keyRuns (leSeed head) 256).drop 4) := by
  rw [decodeHead_eq head (by omega), h]

example : decodeHead sampleHead ≠ sampleHead ∧ decodeHead (decodeHead sampleHead) = sampleHead := by
  decide +kernel
/- The well known sequence 41, 18467, 6334, 26500, ... of that generator. -/
example : (List.range 4).map (fun k => lcgOut 1 (k + 1)) = [41, 18467, 6334, 26500] ∧
    keyRuns 1 2 = [41, 41, 41, 41, 190, 190, 190, 190, 190] := by decide +kernel

/-! ### C43 decoding -/

/-- C43: for every block cipher pair, decoding head record and ciphertext gives the
plaintext. -/
theorem C43_recovers_plaintext (enc dec : Bytes → Bytes → Bytes) (head key : Bytes)
    (blocks : List Bytes) (hkey : decodeHeadToKey head = .ok key)
    (henc : ∀ b, b.length = 16 → (enc key b).length = 16)
    (hinv : ∀ b, b.length = 16 → dec key (enc key b) = b)
    (hb : ∀ b ∈ blocks, b.length = 16) :
    distDecode dec (distStream enc key head blocks) = .ok blocks.flatten ∧
      distTailDecrypted dec (distStream enc key head blocks) = .ok blocks.flatten := by
  have hlen : head.length = 256 := by
    apply Classical.byContradiction
    intro h
    rw [((C41_total_and_sized head).2 h).2] at hkey
    simp at hkey
  have hr : readRecord (distStream enc key head blocks) 0 =
      .ok (some (⟨0x1c, 0, 256, head, 0⟩, ecbEncrypt enc key blocks)) := by
    have := readRecord_bytes ⟨0x1c, 0, head⟩ ⟨by dsimp only; omega, by dsimp only; omega, by dsimp only; omega⟩
      (by intro e; simp only at e; rw [e] at hlen; simp at hlen) (ecbEncrypt enc key blocks) 0
    simpa [Spec.Rec.bytes, Spec.Rec.toRecord, hlen, distStream] using this
  have he := ecb_roundtrip enc dec key henc hinv blocks hb
  have hs : (distStream enc key head blocks).length - (ecbEncrypt enc key blocks).length = 260 := by
    have : (headerBytes 0x1c 0 256).length = 4 := by decide
    simp [distStream, this, hlen]
    omega
  constructor
  · unfold distDecode
    simp only [hr, bind, Except.bind, tagDistributeDocData, ne_eq, not_true_eq_false, if_false, hkey,
      decryptTail, he, Nat.reduceAdd]
  · unfold distTailDecrypted distHead distTail
    simp only [hr, bind, Except.bind, pure, Except.pure, hkey, decryptTail, hs, if_true, he]

/-- C43: a stream whose first record is not the distribution record is rejected, and
so is one whose head has a wrong size. -/
theorem C43_other_records_rejected (dec : Bytes → Bytes → Bytes) (r : Spec.Rec) (hr : r.Fits)
    (hp : r.payload ≠ []) (rest : Bytes) :
    (r.tagid ≠ 0x1c → distDecode dec (r.bytes ++ rest) = .error .ioError) ∧
    (r.tagid = 0x1c → r.payload.length ≠ 256 →
      distDecode dec (r.bytes ++ rest) = .error .valueError) := by
  have h := readRecord_bytes r hr hp rest 0
  constructor
  · intro ht
    unfold distDecode
    simp only [h, bind, Except.bind]
    rw [if_pos (by simpa [Spec.Rec.toRecord, tagDistributeDocData] using ht)]
  · intro ht hl
    unfold distDecode
    simp only [h, bind, Except.bind]
    rw [if_neg (by simp [Spec.Rec.toRecord, tagDistributeDocData, ht])]
    simp only [Spec.Rec.toRecord, ((C41_total_and_sized r.payload).2 hl).2]

/-- C43: text that is not whole blocks is rejected, never shortened. -/
theorem C43_partial_block_rejected (dec : Bytes → Bytes → Bytes) (key : Bytes) (data out : Bytes)
    (h : decryptTail dec key data = .ok out) : data.length % 16 = 0 := by
  unfold decryptTail at h
  induction hk : data.length using Nat.strongRecOn generalizing data out with
  | ind k ih =>
    rw [ecbDecrypt] at h
    split at h
    · rename_i e; subst e; simp at hk; omega
    · split at h
      · simp at h
      · cases hr : ecbDecrypt dec key (data.drop 16) with
        | error e => simp [hr, bind, Except.bind] at h
        | ok o =>
          have hd : (data.drop 16).length = data.length - 16 := by simp
          have := ih (data.drop 16).length (by omega) (data.drop 16) o hr rfl
          omega

/- A toy cipher: add 1 to every byte. -/
example : distDecode (fun _ b => b.map (· - 1))
    (distStream (fun _ b => b.map (· + 1)) [] sampleHead
      [[1,2,3,4,5,6,7,8,9,10,11,12,13,14,15,16], [1,1,1,1,1,1,1,1,1,1,1,1,1,1,1,255]]) =
    .ok [1,2,3,4,5,6,7,8,9,10,11,12,13,14,15,16,1,1,1,1,1,1,1,1,1,1,1,1,1,1,1,255] := by decide +kernel
example : distDecode (fun _ b => b) [] = .error .typeError := by decide +kernel
example : distDecode (fun _ b => b) [0x10, 0, 0x10, 0, 7] = .error .ioError := by decide +kernel

private theorem readRecord_suffix {s rest : Bytes} {n : Nat} {r : Record}
    (h : readRecord s n = .ok (some (r, rest))) : ∃ d, s = d ++ rest := by
  unfold readRecord at h
  simp only [bind, Except.bind, pure, Except.pure] at h
  cases h1 : decodeRecordHeader s with
  | error e => simp [h1] at h
  | ok o =>
    rw [h1] at h
    cases o with
    | none => simp at h
    | some v =>
      obtain ⟨⟨t, l, z⟩, s'⟩ := v
      have hs : ∃ d, s = d ++ s' := by
        unfold decodeRecordHeader at h1
        simp only [bind, Except.bind, pure, Except.pure] at h1
        cases h3 : readU 4 s with
        | error e =>
          rw [h3] at h1
          rcases readU_error h3 (by omega) with ⟨-, rfl⟩ | ⟨-, -, rfl⟩ <;> simp at h1
        | ok w =>
          obtain ⟨d, hd, -, -⟩ := readU_ok h3
          rw [h3] at h1
          simp only at h1
          split at h1
          · rename_i x hx
            split at hx
            · cases h4 : readU 4 w.2 with
              | error e => rw [h4] at hx; simp at hx
              | ok w2 =>
                obtain ⟨d2, hd2, -, -⟩ := readU_ok h4
                rw [h4] at hx
                simp only [Except.ok.injEq] at hx h1
                simp only [Option.some.injEq] at h1
                subst hx
                simp only [Prod.mk.injEq] at h1
                refine ⟨d ++ d2, ?_⟩
                rw [hd, hd2, h1.2]; simp
            · simp only [Except.ok.injEq] at hx h1
              simp only [Option.some.injEq] at h1
              subst hx
              simp only [Prod.mk.injEq] at h1
              exact ⟨d, by rw [hd, h1.2]⟩
          · simp at h1
          · simp at h1
      obtain ⟨d, hd⟩ := hs
      simp only at h
      cases h2 : readn z s' with
      | error e => simp [h2] at h
      | ok w =>
        obtain ⟨d', r'⟩ := w
        obtain ⟨hs', -, -⟩ := readn_ok h2
        simp [h2] at h
        exact ⟨d ++ d', by rw [hd, hs', h.2]; simp⟩

/-- C43: the tail begins at byte 260, whatever the head record is: when the record
does not end there, the result is an error and not bytes from another position. -/
theorem C43_tail_position (stream tail : Bytes) (h : distTail stream = .ok tail) :
    stream.length = 260 + tail.length ∧ stream.drop 260 = tail := by
  unfold distTail at h
  simp only [bind, Except.bind, pure, Except.pure] at h
  cases h1 : readRecord stream 0 with
  | error e => simp [h1] at h
  | ok o =>
    rw [h1] at h
    cases o with
    | none =>
      simp only at h
      split at h
      · rename_i hl
        simp only [Except.ok.injEq] at h
        subst h
        simp [hl]
      · simp at h
    | some v =>
      obtain ⟨r, rest⟩ := v
      obtain ⟨d, hd⟩ := readRecord_suffix h1
      simp only at h
      split at h
      · rename_i hl
        simp only [Except.ok.injEq] at h
        subst h
        have : d.length = 260 := by rw [hd] at hl; simpa using hl
        refine ⟨by rw [hd]; simp [this], ?_⟩
        rw [hd, ← this]
        simp
      · simp at h

/-- C43: what is decrypted is exactly what follows byte 260, with the key from the
256 bytes before. -/
theorem C43_decrypts_from_260 (dec : Bytes → Bytes → Bytes) (stream out : Bytes)
    (h : distTailDecrypted dec stream = .ok out) :
    ∃ head key, distHead stream = .ok head ∧ decodeHeadToKey head = .ok key ∧
      decryptTail dec key (stream.drop 260) = .ok out ∧ 260 ≤ stream.length := by
  unfold distTailDecrypted at h
  simp only [bind, Except.bind] at h
  cases h1 : distHead stream with
  | error e => simp [h1] at h
  | ok head =>
    rw [h1] at h
    simp only at h
    cases h2 : decodeHeadToKey head with
    | error e => simp [h2] at h
    | ok key =>
      rw [h2] at h
      simp only at h
      cases h3 : distTail stream with
      | error e => simp [h3] at h
      | ok tail =>
        rw [h3] at h
        simp only at h
        obtain ⟨a, b⟩ := C43_tail_position stream tail h3
        exact ⟨head, key, rfl, h2, by rw [b]; exact h, by omega⟩

/- A record of 3 bytes: its end is not at 260. -/
example : distTail [0x1c, 0, 0x30, 0, 1, 2, 3, 9, 9] = .error .assertionError := by decide +kernel
example : distTail ([0x1c, 0, 0, 0x10] ++ List.replicate 256 0 ++ [7, 8]) = .ok [7, 8] := by decide +kernel

end Hwp.Props
