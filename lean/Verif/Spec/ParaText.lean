/-
Specification vocabulary for paragraph text (properties C12–C15): code units of a
payload, tilings, the payload format as a serialiser.
-/
import Verif.Model.ParaText
import Verif.Spec.Utf16
namespace Hwp.Spec

/-- The UTF-16 code unit number `i` of a payload, if it is there completely. -/
def unitAt (data : Bytes) (i : Nat) : Option Nat :=
  match data[2 * i]?, data[2 * i + 1]? with
  | some a, some b => some (a.toNat + 256 * b.toNat)
  | _, _ => none

/-- Control codes of the file format that occupy one code unit; the other
codes below 0x20 occupy eight. -/
def oneUnitCodes : List Nat := [0, 10, 13, 24, 25, 26, 27, 28, 29, 30, 31]

/-- Width of a control in code units. -/
def ctrlWidth (code : Nat) : Nat := if code ∈ oneUnitCodes then 1 else 8

/-- The ranges of the chunks are consecutive from `lo` to `hi`. -/
def Tiles : Nat → Nat → List Chunk → Prop
  | lo, hi, [] => lo = hi
  | lo, hi, c :: cs => c.start = lo ∧ lo < c.stop ∧ Tiles c.stop hi cs

instance decTiles : ∀ lo hi cs, Decidable (Tiles lo hi cs)
  | lo, hi, [] => inferInstanceAs (Decidable (lo = hi))
  | _, hi, c :: cs =>
    have := decTiles c.stop hi cs
    inferInstanceAs (Decidable (_ ∧ _ ∧ _))

/-- Is this a control chunk? -/
def Chunk.isCtrl (c : Chunk) : Bool :=
  match c.val with
  | .ctrl _ => true
  | .text _ => false

/-- Text is maximal: no two text chunks are adjacent. -/
def NoAdjacentText : List Chunk → Prop
  | a :: b :: t => (Chunk.isCtrl a = true ∨ Chunk.isCtrl b = true) ∧ NoAdjacentText (b :: t)
  | _ => True

/-- The bytes a control stands for, without the two bytes that close an
eight-unit control. -/
def ctrlBytes : CtrlChar → Bytes
  | .plain c => unitBytes c
  | .tab c w u0 u1 u2 => unitBytes c ++ leBytes 4 w ++ leBytes 1 u0 ++ leBytes 1 u1 ++ u2
  | .other c chid param => unitBytes c ++ chid.reverse ++ param

/-- A piece of paragraph text as an author of a file sees it: a run of
characters, or a control with its two closing bytes. -/
inductive Piece where
  | text (s : List Nat)
  | ctrl (c : CtrlChar) (trailer : Bytes)
  deriving DecidableEq, Repr

/-- Complete, well-formed controls of the file format (any code below 0x20). -/
def CtrlWf : CtrlChar → Bytes → Prop
  | .plain c, tr => c ∈ oneUnitCodes ∧ tr = []
  | .tab c w u0 u1 u2, tr =>
    c = 9 ∧ w < 2 ^ 32 ∧ u0 < 256 ∧ u1 < 256 ∧ u2.length = 6 ∧ tr.length = 2
  | .other c chid param, tr =>
    c < 0x20 ∧ c ∉ oneUnitCodes ∧ c ≠ 9 ∧ chid.length = 4 ∧ param.length = 8 ∧ tr.length = 2

instance : ∀ c tr, Decidable (CtrlWf c tr)
  | .plain _, _ => inferInstanceAs (Decidable (_ ∧ _))
  | .tab _ _ _ _ _, _ => inferInstanceAs (Decidable (_ ∧ _))
  | .other _ _ _, _ => inferInstanceAs (Decidable (_ ∧ _))

/-- Well-formed pieces: text runs are nonempty and contain only characters from
0x20 on. -/
def PieceWf : Piece → Prop
  | .text s => s ≠ [] ∧ ∀ c ∈ s, Scalar c ∧ 0x20 ≤ c
  | .ctrl c tr => CtrlWf c tr

instance : ∀ p, Decidable (PieceWf p)
  | .text _ => inferInstanceAs (Decidable (_ ∧ _))
  | .ctrl c tr => inferInstanceAs (Decidable (CtrlWf c tr))

/-- Payload bytes of a piece. -/
def Piece.bytes : Piece → Bytes
  | .text s => encodeUtf16le s
  | .ctrl c tr => ctrlBytes c ++ tr

/-- Payload bytes of a sequence of pieces. -/
def payload (ps : List Piece) : Bytes := (ps.map Piece.bytes).flatten

/-- Join adjacent text runs. -/
def mergeTexts : List Piece → List Piece
  | [] => []
  | .text s :: ps =>
    match mergeTexts ps with
    | .text t :: qs => .text (s ++ t) :: qs
    | qs => .text s :: qs
  | .ctrl c tr :: ps => .ctrl c tr :: mergeTexts ps

/-- Number of code units of a piece. -/
def Piece.width : Piece → Nat
  | .text s => (strUnits s).length
  | .ctrl c _ => ctrlWidth c.code

/-- The chunk list expected for pieces that begin at code unit `pos`. -/
def chunksAt (pos : Nat) : List Piece → List Chunk
  | [] => []
  | p :: ps =>
    ⟨pos, pos + p.width, match p with | .text s => .text s | .ctrl c _ => .ctrl c⟩ ::
      chunksAt (pos + p.width) ps

/-- Codes below 0x20 that the code's table lacks. -/
def missingCodes : List Nat := [0x19, 0x1a, 0x1b, 0x1c, 0x1d]

end Hwp.Spec
