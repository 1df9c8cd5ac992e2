/-
Model of /repo/src/hwp5/binmodel/controlchar.py (ControlChar, CHID.decode) and
/repo/src/hwp5/binmodel/tagid51_para_text.py (ParaTextChunks).
-/
import Verif.Model.Utf16
namespace Hwp

/-- controlchar.py:123-130. -/
inductive CtrlKind where
  | char | inline | extended
  deriving DecidableEq, Repr

/-- `kind.size`, controlchar.py:123-130. -/
def CtrlKind.size : CtrlKind → Nat
  | .char => 1
  | .inline => 8
  | .extended => 8

/-- `ControlChar.kinds[unichr(code)]`, controlchar.py:131-159; `none` is `KeyError`.
Codes 0x19–0x1d are not in the table. -/
def ctrlKind (code : Nat) : Option CtrlKind :=
  match code with
  | 0x00 => some .char
  | 0x01 => some .extended
  | 0x02 => some .extended
  | 0x03 => some .extended
  | 0x04 => some .inline
  | 0x05 => some .inline
  | 0x06 => some .inline
  | 0x07 => some .inline
  | 0x08 => some .inline
  | 0x09 => some .inline
  | 0x0a => some .char
  | 0x0b => some .extended
  | 0x0c => some .extended
  | 0x0d => some .char
  | 0x0e => some .extended
  | 0x0f => some .extended
  | 0x10 => some .extended
  | 0x11 => some .extended
  | 0x12 => some .extended
  | 0x13 => some .inline
  | 0x14 => some .inline
  | 0x15 => some .extended
  | 0x16 => some .extended
  | 0x17 => some .extended
  | 0x18 => some .char
  | 0x1e => some .char
  | 0x1f => some .char
  | _ => none

/-- Leftmost match of the regular expression `[\x00-\x1f]\x00` (controlchar.py:165)
in a byte list whose first byte has index `i`. -/
def reSearchGo (i : Nat) : Bytes → Option Nat
  | a :: b :: t => if a.toNat ≤ 0x1f ∧ b.toNat = 0 then some i else reSearchGo (i + 1) (b :: t)
  | _ => none

/-- `REGEX_CONTROL_CHAR.search(data, start)`: index of the leftmost match at or
behind `start`. -/
def reSearch (data : Bytes) (start : Nat) : Option Nat := reSearchGo start (data.drop start)

theorem reSearchGo_bounds {l : Bytes} {i j : Nat} (h : reSearchGo i l = some j) :
    i ≤ j ∧ j + 1 < i + l.length := by
  induction l generalizing i with
  | nil => simp [reSearchGo] at h
  | cons a t ih =>
    cases t with
    | nil => simp [reSearchGo] at h
    | cons b t =>
      unfold reSearchGo at h
      split at h
      · simp at h; subst h; simp
      · have := ih h
        simp at this ⊢; omega

theorem reSearch_bounds {data : Bytes} {s i : Nat} (h : reSearch data s = some i) :
    s ≤ i ∧ i + 1 < data.length := by
  have := reSearchGo_bounds h
  rw [List.length_drop] at this
  omega

/-- controlchar.py:167-183 `ControlChar.find(data, start_idx)`. -/
def ctrlFind (data : Bytes) (start : Nat) : Except PyErr (Nat × Nat) :=
  match h : reSearch data start with
  | none => .ok (data.length, data.length)
  | some i =>
    if i &&& 1 = 1 then
      have := reSearch_bounds h
      ctrlFind data (i + 1)
    else
      match data[i]? with
      | none => .error .indexError
      | some c =>
        match ctrlKind c.toNat with
        | none => .error .keyError
        | some k => .ok (i, i + k.size * 2)
termination_by data.length - start

/-- The dict returned by `ControlChar.decode`, controlchar.py:185-202. -/
inductive CtrlChar where
  /-- `dict(code=code)` -/
  | plain (code : Nat)
  /-- `dict(code=code, param=dict(width, unknown0, unknown1, unknown2))` -/
  | tab (code width unknown0 unknown1 : Nat) (unknown2 : Bytes)
  /-- `dict(code=code, chid=chid, param=param)` -/
  | other (code : Nat) (chid : Bytes) (param : Bytes)
  deriving DecidableEq, Repr

def CtrlChar.code : CtrlChar → Nat
  | .plain c => c
  | .tab c _ _ _ _ => c
  | .other c _ _ => c

/-- Python slice `b[i:j]` for `0 ≤ i ≤ j`. -/
def slice (b : Bytes) (i j : Nat) : Bytes := (b.drop i).take (j - i)

/-- controlchar.py:109-119 `CHID.decode`: four characters in reverse order
(kept as bytes; `chr` is injective). Fewer bytes raise `IndexError`. -/
def chidDecode (b : Bytes) : Except PyErr Bytes :=
  match b[0]?, b[1]?, b[2]?, b[3]? with
  | some b0, some b1, some b2, some b3 => .ok [b3, b2, b1, b0]
  | _, _, _, _ => .error .indexError

/-- controlchar.py:185-202 `ControlChar.decode`. -/
def ctrlDecode (b : Bytes) : Except PyErr CtrlChar := do
  let code ← unpackU 2 (slice b 0 2)
  match ctrlKind code with
  | none => .error .keyError
  | some k =>
    if k.size = 8 then
      let p := slice b 2 (2 + 12)
      if code = 0x09 then
        let width ← unpackU 4 (slice p 0 4)
        let u0 ← unpackU 1 (slice p 4 5)
        let u1 ← unpackU 1 (slice p 5 6)
        return .tab code width u0 u1 (p.drop 6)
      else
        let chid ← chidDecode (slice p 0 4)
        return .other code chid (slice p 4 12)
    else
      return .plain code

/-- The payload of one chunk: decoded text or a control. -/
inductive ChunkVal where
  | text (s : PyStr)
  | ctrl (c : CtrlChar)
  deriving DecidableEq, Repr

/-- One item yielded by `parse_chunks`: `((start, end), value)`, in code units. -/
structure Chunk where
  start : Nat
  stop : Nat
  val : ChunkVal
  deriving DecidableEq, Repr

theorem ctrlKind_size_pos (k : CtrlKind) : 0 < k.size := by cases k <;> decide

theorem ctrlFind_bounds {data : Bytes} {s p q : Nat} (h : ctrlFind data s = .ok (p, q)) :
    (p = data.length ∧ q = data.length) ∨ (s ≤ p ∧ p < q ∧ p + 1 < data.length) := by
  induction hk : data.length - s using Nat.strongRecOn generalizing s with
  | ind n ih =>
    rw [ctrlFind] at h
    split at h
    · simp at h; left; exact ⟨h.1.symm, h.2.symm⟩
    · rename_i i hi
      have hb := reSearch_bounds hi
      split at h
      · rcases ih (data.length - (i + 1)) (by omega) h rfl with h' | h'
        · left; exact h'
        · right; omega
      · split at h
        · cases h
        · split at h
          · cases h
          · rename_i k hk'
            injection h with h; injection h with h1 h2
            subst h1 h2
            have := ctrlKind_size_pos k
            right; omega

/-- tagid51_para_text.py:39-52 `parse_chunks`, from index `idx` on. -/
def parseChunksFrom (data : Bytes) (idx : Nat) : Gen Chunk :=
  if hidx : idx < data.length then
    match h : ctrlFind data idx with
    | .error e => .raise e
    | .ok (ctrlpos, ctrlposEnd) =>
      have : data.length - ctrlposEnd < data.length - idx := by
        have := ctrlFind_bounds h; omega
      let rest := parseChunksFrom data ctrlposEnd
      let withCtrl : Gen Chunk :=
        if ctrlpos < ctrlposEnd then
          match ctrlDecode (slice data ctrlpos ctrlposEnd) with
          | .error e => .raise e
          | .ok c => .cons ⟨ctrlpos / 2, ctrlposEnd / 2, .ctrl c⟩ rest
        else rest
      if idx < ctrlpos then
        match utf16leDecode (slice data idx ctrlpos) with
        | .error e => .raise e
        | .ok t => .cons ⟨idx / 2, ctrlpos / 2, .text t⟩ withCtrl
      else withCtrl
  else .done
termination_by data.length - idx

/-- tagid51_para_text.py:34-52 `ParaTextChunks.read` on a payload. -/
def parseChunks (data : Bytes) : Gen Chunk := parseChunksFrom data 0

end Hwp
