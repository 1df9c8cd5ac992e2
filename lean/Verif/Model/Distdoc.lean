/-
Model of /repo/src/hwp5/distdoc.py and of `Hwp5DistDocStream`
(/repo/src/hwp5/filestructure.py:210-259).
-/
import Verif.Model.Records
namespace Hwp

/-- distdoc.py:48-58 `Random.rand`: (value, new seed). -/
def msRand (seed : Nat) : Nat × Nat :=
  let seed := (seed * 214013 + 2531011) &&& 0xffffffff
  ((seed >>> 16) &&& 0x7fff, seed)

/-- State of the loop distdoc.py:76-83: the generator's seed, `key` and `n`.
(`key` is unbound before the first round, which assigns it because `n == 0`.) -/
structure HeadSt where
  seed : Nat
  key : Nat
  n : Nat

/-- distdoc.py:78-80: a new key and a new run length when the run is over. -/
def HeadSt.refill (st : HeadSt) : HeadSt :=
  if st.n = 0 then
    let (k, seed) := msRand st.seed
    let (m, seed) := msRand seed
    ⟨seed, k &&& 0xff, (m &&& 0xf) + 1⟩
  else st

/-- distdoc.py:77-83 for the bytes from index `i` on. -/
def headLoop (st : HeadSt) (i : Nat) : Bytes → Bytes
  | [] => []
  | b :: bs =>
    let st := st.refill
    let b' := if 4 ≤ i then b ^^^ UInt8.ofNat st.key else b
    b' :: headLoop { st with n := st.n - 1 } (i + 1) bs

/-- `data[3] << 24 | data[2] << 16 | data[1] << 8 | data[0]`, distdoc.py:72-73. -/
def headSeed (data : Bytes) : Nat :=
  ((data.getD 3 0).toNat <<< 24) ||| ((data.getD 2 0).toNat <<< 16) |||
    ((data.getD 1 0).toNat <<< 8) ||| (data.getD 0 0).toNat

/-- distdoc.py:72-86: the decoded head (`decoded`) of a 256 byte payload. -/
def decodeHead (data : Bytes) : Bytes := headLoop ⟨headSeed data, 0, 0⟩ 0 data

/-- distdoc.py:61-90 `decode_head_to_sha1`. -/
def decodeHeadToSha1 (payload : Bytes) : Except PyErr Bytes :=
  if payload.length ≠ 256 then .error .valueError
  else
    let off := 4 + (headSeed payload &&& 0xf)
    .ok (((decodeHead payload).drop off).take 80)

/-- distdoc.py:93-95 `decode_head_to_key`. -/
def decodeHeadToKey (payload : Bytes) : Except PyErr Bytes := do
  let sha1 ← decodeHeadToSha1 payload
  return sha1.take 16

/-- tagids.py:25,40 `HWPTAG_DISTRIBUTE_DOC_DATA`. -/
def tagDistributeDocData : Nat := 0x10 + 12

/-- AES-128 ECB without padding, plat/__init__.py:125-172, for the block function
`dec`: blocks of 16 bytes; an incomplete block is a `ValueError` of the
`cryptography` package (`decryptor.finalize()`). -/
def ecbDecrypt (dec : Bytes → Bytes → Bytes) (key : Bytes) (data : Bytes) : Except PyErr Bytes :=
  if data = [] then .ok []
  else if data.length < 16 then .error .valueError
  else do
    let rest ← ecbDecrypt dec key (data.drop 16)
    return dec key (data.take 16) ++ rest
termination_by data.length
decreasing_by
  cases data with
  | nil => contradiction
  | cons a as => simp; omega

/-- distdoc.py:98-100 `decrypt_tail` with the cipher as a parameter. -/
def decryptTail (dec : Bytes → Bytes → Bytes) (key tail : Bytes) : Except PyErr Bytes :=
  ecbDecrypt dec key tail

/-- distdoc.py:37-45 `decode`: the contents of the returned `BytesIO`.
`None['tagid']` (no record) is a `TypeError`. -/
def distDecode (dec : Bytes → Bytes → Bytes) (stream : Bytes) : Except PyErr Bytes := do
  match ← readRecord stream 0 with
  | none => .error .typeError
  | some (record, rest) =>
    if record.tagid ≠ tagDistributeDocData then .error .ioError
    else
      let key ← decodeHeadToKey record.payload
      decryptTail dec key rest

/-- filestructure.py:217-220, 228-230 `Hwp5DistDocStream.head`. -/
def distHead (stream : Bytes) : Except PyErr Bytes := do
  match ← readRecord stream 0 with
  | none => .error .typeError
  | some (record, _) => return record.payload

/-- filestructure.py:245-250 `Hwp5DistDocStream.tail`; the position after the record
must be 260. -/
def distTail (stream : Bytes) : Except PyErr Bytes := do
  match ← readRecord stream 0 with
  | none => if stream.length = 260 then return [] else .error .assertionError
  | some (_, rest) => if stream.length - rest.length = 260 then return rest else .error .assertionError

/-- filestructure.py:252-256 `Hwp5DistDocStream.tail_decrypted`. -/
def distTailDecrypted (dec : Bytes → Bytes → Bytes) (stream : Bytes) : Except PyErr Bytes := do
  let head ← distHead stream
  let key ← decodeHeadToKey head
  let tail ← distTail stream
  decryptTail dec key tail

end Hwp
