/-
C105: the option `--format` of `hwp5proc models` and `hwp5proc find`, and the escapes used in it.
-/
import Verif.Proofs.Format
import Verif.Props.Find
set_option autoImplicit false
set_option linter.unusedSimpArgs false
set_option linter.unusedVariables false
set_option Elab.async false
namespace Hwp.Props
open Hwp Spec

/-- `unicode_unescape` is the inverse of `unicode_escape` (which `hwp5proc ls` uses), for every text. -/
theorem C105_inverse (names : PyStr → Option Nat) (s : PyStr) (h : ∀ c ∈ s, c < 0x110000) :
    unicodeUnescape names (unicodeEscape s) = .ok s := by
  obtain ⟨b, h1, h2⟩ := utf8_ascii_bytes _ (unicodeEscape_ascii s)
  unfold unicodeUnescape
  rw [h1]
  dsimp only
  rw [h2, unescapeChars_escape names s h]

/-- Different texts are escaped differently. -/
theorem C105_escape_injective (s t : PyStr) (hs : ∀ c ∈ s, c < 0x110000) (ht : ∀ c ∈ t, c < 0x110000)
    (h : unicodeEscape s = unicodeEscape t) : s = t := by
  have h1 := C105_inverse (fun _ => none) s hs
  rw [h, C105_inverse (fun _ => none) t ht] at h1
  injection h1 with h1
  exact h1.symm

/-- A format of ASCII characters without backslashes is used as it is given. -/
theorem C105_ascii (names : PyStr → Option Nat) (s : PyStr) (h : ∀ c ∈ s, c < 0x80) (hb : 0x5c ∉ s) :
    unicodeUnescape names s = .ok s := by
  obtain ⟨b, h1, h2⟩ := utf8_ascii_bytes s h
  unfold unicodeUnescape
  rw [h1]
  dsimp only
  rw [h2, unescape_plain names s hb]

/-- **Violated**: a format with any other character is not used as it is given: what is used instead are the bytes of its
UTF-8 form, each as a character of Latin-1. -/
theorem C105_other_characters (names : PyStr → Option Nat) (s : PyStr) (hs : ∀ c ∈ s, Scalar c) (hb : 0x5c ∉ s)
    (hc : ∃ c ∈ s, 0x80 ≤ c) :
    ∃ bytes : Bytes, decodeUtf8 bytes = some s ∧ unicodeUnescape names s = .ok (bytes.map UInt8.toNat) ∧ bytes.map UInt8.toNat ≠ s := by
  obtain ⟨b, h1⟩ := (utf8Encode_ok s).2 hs
  refine ⟨b, decode_encode s b h1, ?_, ?_⟩
  · unfold unicodeUnescape
    rw [h1]
    dsimp only
    rw [unescape_plain names _ (utf8_noBackslash s b h1 hb)]
  · intro he
    have := (utf8_length s b h1).2 hc
    rw [← List.length_map UInt8.toNat, he] at this
    omega

/-- A format shows its text and the members it names. -/
theorem C105_format (env : FmtEnv) (dict : PyStr → Option FmtVal) (st : FmtState) (parts : List FmtPart) (hk : ∀ p ∈ parts, PlainKey p)
    (t : PyStr) (h : formatShown dict parts = some t) : pyFormat env dict st (formatText parts) = .ok t := by
  obtain ⟨st', e⟩ := pyFormat_parts env dict parts hk t h st []
  rw [List.append_nil] at e
  rw [e, pyFormat]
  show Except.ok (t ++ []) = _
  rw [List.append_nil]

/-- A member that is not there is a `KeyError`, whatever follows. -/
theorem C105_missing (env : FmtEnv) (dict : PyStr → Option FmtVal) (st : FmtState) (parts : List FmtPart) (hk : ∀ p ∈ parts, PlainKey p)
    (t : PyStr) (h : formatShown dict parts = some t) (key rest : PyStr) (h1 : 0x28 ∉ key) (h2 : 0x29 ∉ key) (hd : dict key = none) :
    pyFormat env dict st (formatText parts ++ (lit "%(" ++ key ++ lit ")" ++ rest)) = .error .keyError := by
  obtain ⟨st', e⟩ := pyFormat_parts env dict parts hk t h st (lit "%(" ++ key ++ lit ")" ++ rest)
  rw [e, pyFormat_missing env dict st' key rest h1 h2 hd]
  rfl

/-- `hwp5proc models --format`: for each model the text of the format is written with the members of this model, if the
format is given in escaped form; all texts can be in the format. -/
theorem C105_models (names : PyStr → Option Nat) (env : FmtEnv) (others : PModel Fields → PyStr → Option FmtVal)
    (whole : PModel Fields → PyStr) (parts : List FmtPart) (hk : ∀ p ∈ parts, PlainKey p)
    (hc : ∀ c ∈ formatText parts, c < 0x110000) (g : Gen (PModel Fields)) (shown : PModel Fields → PyStr)
    (h : ∀ m ∈ g.out, formatShown (modelDict others m) parts = some (shown m)) :
    modelsFormat names env others whole (unicodeEscape (formatText parts)) g = ⟨(g.out.map shown).flatten, g.err⟩ := by
  unfold modelsFormat
  rw [C105_inverse names _ hc]
  dsimp only
  refine writeEach_ok _ shown g.err g.out fun m hm => ?_
  exact C105_format env _ _ parts hk _ (h m hm)

/-- The same for a format of ASCII characters without backslashes as it is.
Missing from the claim: other characters (see `C105_other_characters`). -/
theorem C105_models_partial (names : PyStr → Option Nat) (env : FmtEnv) (others : PModel Fields → PyStr → Option FmtVal)
    (whole : PModel Fields → PyStr) (parts : List FmtPart) (hk : ∀ p ∈ parts, PlainKey p)
    (hc : ∀ c ∈ formatText parts, c < 0x80 ∧ c ≠ 0x5c) (g : Gen (PModel Fields)) (shown : PModel Fields → PyStr)
    (h : ∀ m ∈ g.out, formatShown (modelDict others m) parts = some (shown m)) :
    modelsFormat names env others whole (formatText parts) g = ⟨(g.out.map shown).flatten, g.err⟩ := by
  unfold modelsFormat
  rw [C105_ascii names _ (fun c hx => (hc c hx).1) (fun hx => (hc _ hx).2 rfl)]
  dsimp only
  refine writeEach_ok _ shown g.err g.out fun m hm => ?_
  exact C105_format env _ _ parts hk _ (h m hm)

/-- The members a format can name: those of the record and the type. -/
theorem C105_members (others : PModel Fields → PyStr → Option FmtVal) (m : PModel Fields) :
    modelDict others m (lit "seqno") = some (.int m.record.seqno) ∧
    modelDict others m (lit "level") = some (.int m.record.level) ∧
    modelDict others m (lit "tagid") = some (.int m.record.tagid) ∧
    modelDict others m (lit "size") = some (.int m.record.size) ∧
    modelDict others m (lit "tagname") = some (.str (tagname m.record.tagid)) ∧
    modelDict others m (lit "type") = some (.str (lit m.type)) := by
  refine ⟨?_, ?_, ?_, ?_, ?_, ?_⟩ <;> rfl

/-- `hwp5proc find --format`: the line of a model is the text of the format with its members.  The format is used as it is
given: a backslash is a backslash. -/
theorem C105_find (env : FmtEnv) (others : PModel Fields → PyStr → Option FmtVal) (whole : FoundModel → PyStr) (parts : List FmtPart)
    (hk : ∀ p ∈ parts, PlainKey p) (hne : formatText parts ≠ []) (m : FoundModel) (t : PyStr)
    (h : formatShown (foundDict others m) parts = some t) :
    foundFormatted env others whole (some (formatText parts)) m = .ok (t ++ [0x0a]) := by
  have hf := C105_format env (foundDict others m) ⟨.other (whole m), false⟩ parts hk t h
  unfold foundFormatted
  match hp : formatText parts, hne with
  | c :: cs, _ =>
    rw [hp] at hf
    dsimp only
    rw [hf]

/-- The parts of the format that is used if none is given. -/
def findParts : List FmtPart :=
  [.field (lit "filename") false 0, .text (lit " "), .field (lit "stream") false 0, .text (lit " "), .field (lit "seqno") false 0,
    .text (lit " "), .field (lit "tagname") false 0, .text (lit " "), .field (lit "type") false 0]

/-- Without `--format`, or with an empty one, the line is that of C85. -/
theorem C105_find_default (env : FmtEnv) (others : PModel Fields → PyStr → Option FmtVal) (whole : FoundModel → PyStr) (m : FoundModel) :
    foundFormatted env others whole none m = .ok (foundLine m) ∧ foundFormatted env others whole (some []) m = .ok (foundLine m) := by
  have hp : formatText findParts = lit "%(filename)s %(stream)s %(seqno)s %(tagname)s %(type)s" := by decide +kernel
  have hk : ∀ p ∈ findParts, PlainKey p := by
    intro p hp
    simp only [findParts, List.mem_cons, List.not_mem_nil, or_false] at hp
    rcases hp with rfl | rfl | rfl | rfl | rfl | rfl | rfl | rfl | rfl <;>
      first
      | exact trivial
      | exact ⟨by decide +kernel, by decide +kernel⟩
  have hs : formatShown (foundDict others m) findParts = some (m.filename ++ [0x20] ++ m.stream ++ [0x20] ++ natStr m.model.record.seqno ++ [0x20] ++
      tagname m.model.record.tagid ++ [0x20] ++ lit m.model.type) := by
    have h1 : foundDict others m (lit "filename") = some (.str m.filename) := rfl
    have h2 : foundDict others m (lit "stream") = some (.str m.stream) := rfl
    have h3 : foundDict others m (lit "seqno") = some (.int m.model.record.seqno) := rfl
    have h4 : foundDict others m (lit "tagname") = some (.str (tagname m.model.record.tagid)) := rfl
    have h5 : foundDict others m (lit "type") = some (.str (lit m.model.type)) := rfl
    simp only [findParts, formatShown, partShown, h1, h2, h3, h4, h5, valueText, Nat.zero_sub, List.replicate_zero, List.nil_append,
      Bool.false_eq_true, if_false, List.append_nil, decimal_nat]
    simp only [List.append_assoc]
    rfl
  have hf := C105_format env (foundDict others m) ⟨.other (whole m), false⟩ findParts hk _ hs
  rw [hp] at hf
  unfold foundFormatted foundLine
  dsimp only
  rw [hf]
  exact ⟨rfl, rfl⟩

/-- Without a key the whole model is shown, once: a second `%s` is a `TypeError`, and so is one behind a member. -/
theorem C105_whole (env : FmtEnv) (dict : PyStr → Option FmtVal) (v : FmtVal) (rest : PyStr) :
    pyFormat env dict ⟨v, false⟩ (lit "%s" ++ rest) = appendOk (valueText v) (pyFormat env dict ⟨v, true⟩ rest) ∧
    pyFormat env dict ⟨v, true⟩ (lit "%s" ++ rest) = .error .typeError := by
  have e : lit "%s" ++ rest = 0x25 :: 0x73 :: rest := rfl
  have hp : ∀ st : FmtState, parseField dict st (0x73 :: rest) = .ok ({ conv := 0x73 }, st, rest) := by
    intro st
    unfold parseField
    rw [if_neg (by simp)]
    simp [parseSpec, takeFlags, takeWidth, takeNumber, fmtDigit, takePrec, takeConv]
  rw [e]
  constructor
  · rw [pyFormat]
    simp only [ne_eq, not_true_eq_false, if_false]
    split
    · next h => rw [hp] at h; cases h
    · next h =>
      rw [hp] at h
      simp only [Except.ok.injEq, Prod.mk.injEq] at h
      obtain ⟨rfl, rfl, rfl⟩ := h
      simp [nextArg, fmtValue, padText, fmtStr_text]
  · rw [pyFormat]
    simp only [ne_eq, not_true_eq_false, if_false]
    split
    · next h => rw [hp] at h; cases h
    · next h =>
      rw [hp] at h
      simp only [Except.ok.injEq, Prod.mk.injEq] at h
      obtain ⟨rfl, rfl, rfl⟩ := h
      simp [nextArg]

/-! ### Examples -/

/-- Some members. -/
def exMembers (key : PyStr) : Option FmtVal :=
  if key = lit "seqno" then some (.int 7) else if key = lit "tagname" then some (.str (lit "HWPTAG_PARA_TEXT")) else none

/-- No other conversions. -/
def noConv : FmtEnv := ⟨fun _ _ => .error .valueError⟩

/-- A state before the first member. -/
def exState : FmtState := ⟨.other (lit "{}"), false⟩

example : unicodeUnescape (fun _ => none) (lit "%(seqno)s\\t%(type)s\\n") = .ok (lit "%(seqno)s" ++ [9] ++ lit "%(type)s" ++ [10]) := by decide +kernel
example : unicodeEscape [0xd55c, 0x5c, 0x1F600, 10, 0xe9] = lit "\\ud55c\\\\\\U0001f600\\n\\xe9" := by decide +kernel
/-- The Korean letter '한' in a format is printed as three other characters. -/
example : unicodeUnescape (fun _ => none) [0xd55c] = .ok [0xed, 0x95, 0x9c] := by decide +kernel
example : unicodeUnescape (fun _ => none) (lit "a\\") = .error .unicodeDecodeError ∧ unicodeUnescape (fun _ => none) (lit "\\x4") = .error .unicodeDecodeError ∧
    unicodeUnescape (fun _ => none) (lit "\\U00110000") = .error .unicodeDecodeError ∧ unicodeUnescape (fun _ => none) (lit "\\101\\q\\x4a\\\nb") = .ok (lit "A\\qJb") ∧
    unicodeUnescape (fun _ => none) [0xd800] = .error .unicodeEncodeError := by
  refine ⟨?_, ?_, ?_, ?_, ?_⟩ <;> decide +kernel
example : formatText [.number (lit "seqno") 4, .text (lit " 100% "), .field (lit "tagname") true 20, .text (lit "|")] =
    lit "%(seqno)04d 100%% %(tagname)-20s|" := by decide +kernel
example : pyFormat noConv exMembers exState (lit "%(seqno)04d 100%% %(tagname)-20s|") = .ok (lit "0007 100% HWPTAG_PARA_TEXT    |") := by decide +kernel
example : pyFormat noConv exMembers exState (lit "%(seqno)5s%(tagname).6s%(seqno)+d") = .ok (lit "    7HWPTAG+7") := by decide +kernel
example : pyFormat noConv exMembers exState (lit "%(none)s") = .error .keyError ∧ pyFormat noConv exMembers exState (lit "%(tagname)d") = .error .typeError ∧
    pyFormat noConv exMembers exState (lit "%") = .error .valueError ∧ pyFormat noConv exMembers exState (lit "%(seqno") = .error .valueError ∧
    pyFormat noConv exMembers exState (lit "%(seqno)y") = .error .valueError := by
  refine ⟨?_, ?_, ?_, ?_, ?_⟩ <;> decide +kernel
/-- Without a key the whole model is shown, once. -/
example : pyFormat noConv exMembers exState (lit "%s") = .ok (lit "{}") ∧ pyFormat noConv exMembers exState (lit "%s%s") = .error .typeError := by
  refine ⟨?_, ?_⟩ <;> decide +kernel

end Hwp.Props
