/-
Specification for the commands on streams: an inflate for streams of stored blocks (RFC 1951,
section 3.2.4), and hexadecimal text.
-/
import Verif.Model.Rawunz
import Verif.Spec.Info
namespace Hwp.Spec

/-- How far an inflate has come. -/
inductive InflateState where
  | more
  | ended
  | bad
  deriving DecidableEq, Repr

/-- Streams of stored blocks: a byte with the bits BFINAL and BTYPE = 00, LEN, its complement
NLEN, and LEN bytes.  Other block types are taken for errors. -/
def storedRun (p : Bytes) : Bytes × InflateState :=
  match p with
  | [] => ([], .more)
  | h :: r =>
    if h.toNat % 8 / 2 ≠ 0 then ([], .bad)
    else
      match r with
      | a :: b :: c :: d :: rest =>
        if a.toNat + c.toNat ≠ 255 ∨ b.toNat + d.toNat ≠ 255 then ([], .bad)
        else if rest.length < a.toNat + 256 * b.toNat then (rest, .more)
        else if h.toNat % 2 = 1 then (rest.take (a.toNat + 256 * b.toNat), .ended)
        else
          let q := storedRun (rest.drop (a.toNat + 256 * b.toNat))
          (rest.take (a.toNat + 256 * b.toNat) ++ q.1, q.2)
      | _ => ([], .more)
termination_by p.length
decreasing_by simp only [List.length_drop, List.length_cons]; omega

/-- The lower case hexadecimal digits of bytes. -/
def hexBytes (data : Bytes) : PyStr := data.flatMap fun b => lowerHex 2 b.toNat

end Hwp.Spec
