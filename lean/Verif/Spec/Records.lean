/-
Specification of the HWP record stream layout, independent of the model's codec:
the first 32-bit little-endian word packs tag id (10 bits), level (10 bits) and
size (12 bits); sizes of 0xfff and more follow as a second 32-bit word.
-/
import Verif.Model.Py
namespace Hwp.Spec

/-- Four little-endian bytes, written out. -/
def le32 (v : Nat) : Bytes :=
  [UInt8.ofNat (v % 256), UInt8.ofNat (v / 256 % 256),
   UInt8.ofNat (v / 65536 % 256), UInt8.ofNat (v / 16777216 % 256)]

/-- Canonical header bytes by plain arithmetic. -/
def headerBytes (tagid level size : Nat) : Bytes :=
  if size < 4095 then le32 (tagid + 1024 * level + 1048576 * size)
  else le32 (tagid + 1024 * level + 1048576 * 4095) ++ le32 size

/-- A record as the user supplies it. -/
structure Rec where
  tagid : Nat
  level : Nat
  payload : Bytes

/-- Field ranges of the format. -/
def Rec.Fits (r : Rec) : Prop :=
  r.tagid < 1024 ∧ r.level < 1024 ∧ r.payload.length < 4294967296

def Rec.bytes (r : Rec) : Bytes := headerBytes r.tagid r.level r.payload.length ++ r.payload

/-- The byte stream of a list of records. -/
def streamBytes (rs : List Rec) : Bytes := (rs.map Rec.bytes).flatten

/-- Streams that are the canonical encoding of some records with nonempty payloads. -/
def Canonical (s : Bytes) : Prop :=
  ∃ rs : List Rec, (∀ r ∈ rs, r.Fits ∧ r.payload ≠ []) ∧ s = streamBytes rs

end Hwp.Spec
