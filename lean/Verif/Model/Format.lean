import Verif.Model.Find
import Verif.Model.Rawunz
import Verif.Model.Listing
import Verif.Model.Utf8
/-!
Model of the option `--format` of `hwp5proc models` and `hwp5proc find` (/repo/src/hwp5/proc/models.py,
/repo/src/hwp5/proc/find.py), with the library functions it uses: the codec `unicode_escape` and `str % dict`.

Simplifications: the members of a model other than numbers and texts have a text (`str(value)`) that is given; the
conversions other than `s`, `d`, `i` and `u` are given (`FmtEnv.conv`), and so are the names of `\N{...}`.  Widths of
more than `sys.maxsize` are not modelled.
-/
set_option autoImplicit false
namespace Hwp

/-! ### The codec `unicode_escape` -/

/-- The escapes of one character. -/
def simpleEscape (c : Nat) : Option Nat :=
  if c = 0x5c then some 0x5c
  else if c = 0x27 then some 0x27
  else if c = 0x22 then some 0x22
  else if c = 0x62 then some 8
  else if c = 0x66 then some 12
  else if c = 0x74 then some 9
  else if c = 0x6e then some 10
  else if c = 0x72 then some 13
  else if c = 0x76 then some 11
  else if c = 0x61 then some 7
  else none

/-- The number written by `w` hexadecimal digits at the front. -/
def escapeNumber (w : Nat) (s : PyStr) : Option Nat :=
  if (s.take w).length = w then
    (s.take w).foldlM (fun acc c => (hexDigitValue c).map fun d => 16 * acc + d) 0
  else none

/-- An octal digit. -/
def octalDigit (c : Nat) : Bool := 0x30 ≤ c && c ≤ 0x37

/-- How many hexadecimal digits follow: `\x`, `\u`, `\U`. -/
def hexWidth (c : Nat) : Option Nat :=
  if c = 0x78 then some 2 else if c = 0x75 then some 4 else if c = 0x55 then some 8 else none

/-- A character put in front of a result. -/
def consOk (c : Nat) : Except PyErr PyStr → Except PyErr PyStr
  | .ok s => .ok (c :: s)
  | .error e => .error e

/-- `bytes.decode('unicode_escape')`: bytes stand for the characters of Latin-1.  An unknown escape is left as it is. -/
def unescapeChars (names : PyStr → Option Nat) : PyStr → Except PyErr PyStr
  | [] => .ok []
  | c :: s =>
    if c ≠ 0x5c then consOk c (unescapeChars names s)
    else
      match s with
      | [] => .error .unicodeDecodeError
      | e :: s =>
        if e = 10 then unescapeChars names s
        else
          match simpleEscape e with
          | some x => consOk x (unescapeChars names s)
          | none =>
            if octalDigit e then
              let ds := (s.take 2).takeWhile octalDigit
              consOk ((e :: ds).foldl (fun n d => 8 * n + (d - 0x30)) 0) (unescapeChars names (s.drop ds.length))
            else
              match hexWidth e with
              | some w =>
                match escapeNumber w s with
                | none => .error .unicodeDecodeError
                | some n => if n < 0x110000 then consOk n (unescapeChars names (s.drop w)) else .error .unicodeDecodeError
              | none =>
                if e = 0x4e then
                  let name := (s.drop 1).takeWhile (· ≠ 0x7d)
                  if s.head? = some 0x7b ∧ name ≠ [] ∧ s[name.length + 1]? = some 0x7d then
                    match names name with
                    | none => .error .unicodeDecodeError
                    | some n => consOk n (unescapeChars names (s.drop (name.length + 2)))
                  else .error .unicodeDecodeError
                else consOk 0x5c (consOk e (unescapeChars names s))
termination_by s => s.length
decreasing_by all_goals (simp_all; try omega)

/-- utils.py:117-129 `unicode_unescape(s)`. -/
def unicodeUnescape (names : PyStr → Option Nat) (s : PyStr) : Except PyErr PyStr :=
  match utf8Encode s with
  | .error e => .error e
  | .ok bs => unescapeChars names (bs.map UInt8.toNat)

/-! ### `format % mapping` -/

/-- A value to be formatted: a text, an integer, or something else with its `str(value)`. -/
inductive FmtVal where
  | str (s : PyStr)
  | int (n : Int)
  | other (text : PyStr)
  deriving DecidableEq, Repr

/-- What is between '%' and the conversion. -/
structure FmtSpec where
  left : Bool := false
  plus : Bool := false
  blank : Bool := false
  alt : Bool := false
  zero : Bool := false
  width : Nat := 0
  prec : Option Nat := none
  conv : Nat := 0
  deriving DecidableEq, Repr

/-- The argument in use, and whether it was used: the mapping itself, or the value of the last key. -/
structure FmtState where
  arg : FmtVal
  used : Bool

/-- The conversions that are not modelled. -/
structure FmtEnv where
  conv : FmtSpec → FmtVal → Except PyErr PyStr

/-- unicodeobject.c `unicode_format_arg_parse`: the key up to its closing parenthesis. -/
def takeKey : Nat → PyStr → Option (PyStr × PyStr)
  | _, [] => none
  | depth, c :: s =>
    if c = 0x29 then
      match depth with
      | 0 => some ([], s)
      | depth + 1 => (takeKey depth s).map fun p => (c :: p.1, p.2)
    else if c = 0x28 then (takeKey (depth + 1) s).map fun p => (c :: p.1, p.2)
    else (takeKey depth s).map fun p => (c :: p.1, p.2)

/-- The flags. -/
def takeFlags (sp : FmtSpec) : PyStr → FmtSpec × PyStr
  | [] => (sp, [])
  | c :: s =>
    if c = 0x2d then takeFlags { sp with left := true } s
    else if c = 0x2b then takeFlags { sp with plus := true } s
    else if c = 0x20 then takeFlags { sp with blank := true } s
    else if c = 0x23 then takeFlags { sp with alt := true } s
    else if c = 0x30 then takeFlags { sp with zero := true } s
    else (sp, c :: s)

/-- A decimal digit. -/
def fmtDigit (c : Nat) : Bool := 0x30 ≤ c && c ≤ 0x39

/-- A number; no digits are 0. -/
def takeNumber (s : PyStr) : Nat × PyStr :=
  ((s.takeWhile fmtDigit).foldl (fun n c => 10 * n + (c - 0x30)) 0, s.dropWhile fmtDigit)

/-- unicodeobject.c `unicode_format_getnextarg`. -/
def nextArg (st : FmtState) : Except PyErr (FmtVal × FmtState) :=
  if st.used then .error .typeError else .ok (st.arg, { st with used := true })

/-- '*' takes the number from the argument. -/
def starArg (st : FmtState) : Except PyErr (Int × FmtState) :=
  match nextArg st with
  | .error e => .error e
  | .ok (.int n, st) => .ok (n, st)
  | .ok _ => .error .typeError

/-- The width. -/
def takeWidth (sp : FmtSpec) (st : FmtState) (s : PyStr) : Except PyErr (FmtSpec × FmtState × PyStr) :=
  if s.head? = some 0x2a then
    match starArg st with
    | .error e => .error e
    | .ok (n, st) => .ok ({ sp with width := n.natAbs, left := sp.left || decide (n < 0) }, st, s.drop 1)
  else .ok ({ sp with width := (takeNumber s).1 }, st, (takeNumber s).2)

/-- The precision. -/
def takePrec (sp : FmtSpec) (st : FmtState) (s : PyStr) : Except PyErr (FmtSpec × FmtState × PyStr) :=
  if s.head? = some 0x2e then
    if (s.drop 1).head? = some 0x2a then
      match starArg st with
      | .error e => .error e
      | .ok (n, st) => .ok ({ sp with prec := some n.toNat }, st, s.drop 2)
    else .ok ({ sp with prec := some (takeNumber (s.drop 1)).1 }, st, (takeNumber (s.drop 1)).2)
  else .ok (sp, st, s)

/-- The ignored 'h', 'l' or 'L', and the conversion. -/
def takeConv (sp : FmtSpec) (s : PyStr) : Except PyErr (FmtSpec × PyStr) :=
  let s := if s.head? = some 0x68 ∨ s.head? = some 0x6c ∨ s.head? = some 0x4c then s.drop 1 else s
  match s with
  | [] => .error .valueError
  | c :: s => .ok ({ sp with conv := c }, s)

/-- unicodeobject.c `unicode_format_arg_parse`, behind the key. -/
def parseSpec (st : FmtState) (s : PyStr) : Except PyErr (FmtSpec × FmtState × PyStr) :=
  let f := takeFlags {} s
  match takeWidth f.1 st f.2 with
  | .error e => .error e
  | .ok (sp, st, s) =>
    match takePrec sp st s with
    | .error e => .error e
    | .ok (sp, st, s) =>
      match takeConv sp s with
      | .error e => .error e
      | .ok (sp, s) => .ok (sp, st, s)

/-- unicodeobject.c `unicode_format_arg_parse`, behind the '%'. -/
def parseField (dict : PyStr → Option FmtVal) (st : FmtState) (s : PyStr) : Except PyErr (FmtSpec × FmtState × PyStr) :=
  if s.head? = some 0x28 then
    match takeKey 0 (s.drop 1) with
    | none => .error .valueError
    | some (key, s) =>
      match dict key with
      | none => .error .keyError
      | some v => parseSpec ⟨v, false⟩ s
  else parseSpec st s

/-- `str(value)`. -/
def fmtStr : FmtVal → PyStr
  | .str s => s
  | .int n => intStr n
  | .other t => t

/-- unicodeobject.c `unicode_format_arg_output`: a text is cut to the precision and padded with blanks. -/
def padText (sp : FmtSpec) (t : PyStr) : PyStr :=
  let t := match sp.prec with
    | some p => t.take p
    | none => t
  if sp.left then t ++ List.replicate (sp.width - t.length) 0x20 else List.replicate (sp.width - t.length) 0x20 ++ t

/-- unicodeobject.c `unicode_format_arg_output`: a number has its sign, at least as many digits as the precision says,
and is padded with blanks or zeros. -/
def padNumber (sp : FmtSpec) (n : Int) : PyStr :=
  let ds := natStr n.natAbs
  let ds := match sp.prec with
    | some p => List.replicate (p - ds.length) 0x30 ++ ds
    | none => ds
  let sign : PyStr := if n < 0 then [0x2d] else if sp.plus then [0x2b] else if sp.blank then [0x20] else []
  let fill := sp.width - (sign.length + ds.length)
  if sp.left then sign ++ ds ++ List.replicate fill 0x20
  else if sp.zero then sign ++ List.replicate fill 0x30 ++ ds
  else List.replicate fill 0x20 ++ sign ++ ds

/-- unicodeobject.c `unicode_format_arg_format`. -/
def fmtValue (env : FmtEnv) (sp : FmtSpec) (v : FmtVal) : Except PyErr PyStr :=
  if sp.conv = 0x73 then .ok (padText sp (fmtStr v))
  else if sp.conv = 0x64 ∨ sp.conv = 0x69 ∨ sp.conv = 0x75 then
    match v with
    | .int n => .ok (padNumber sp n)
    | _ => .error .typeError
  else if sp.conv ∈ lit "raoxXeEfFgGc" then env.conv sp v
  else .error .valueError

/-- A text put in front of a result. -/
def appendOk (t : PyStr) : Except PyErr PyStr → Except PyErr PyStr
  | .ok s => .ok (t ++ s)
  | .error e => .error e

theorem takeKey_length (s : PyStr) : ∀ (depth : Nat) (k r : PyStr), takeKey depth s = some (k, r) → r.length < s.length := by
  induction s with
  | nil => intro d k r h; cases h
  | cons c s ih =>
    intro d k r h
    have step : ∀ d', (takeKey d' s).map (fun p => (c :: p.1, p.2)) = some (k, r) → r.length < (c :: s).length := by
      intro d' h
      cases hk : takeKey d' s with
      | none => rw [hk] at h; cases h
      | some p =>
        rw [hk] at h
        simp only [Option.map_some, Option.some.injEq, Prod.mk.injEq] at h
        have := ih d' p.1 p.2 hk
        rw [h.2] at this
        simp only [List.length_cons]
        omega
    rw [takeKey.eq_def] at h
    dsimp only at h
    split at h
    · split at h
      · simp only [Option.some.injEq, Prod.mk.injEq] at h
        rw [h.2]
        simp
      · exact step _ h
    · split at h
      · exact step _ h
      · exact step _ h

theorem takeFlags_length (s : PyStr) : ∀ sp : FmtSpec, (takeFlags sp s).2.length ≤ s.length := by
  induction s with
  | nil => intro sp; simp [takeFlags]
  | cons c s ih =>
    intro sp
    rw [takeFlags]
    split
    · exact Nat.le_succ_of_le (ih _)
    · split
      · exact Nat.le_succ_of_le (ih _)
      · split
        · exact Nat.le_succ_of_le (ih _)
        · split
          · exact Nat.le_succ_of_le (ih _)
          · split
            · exact Nat.le_succ_of_le (ih _)
            · exact Nat.le_refl _

theorem takeNumber_length (s : PyStr) : (takeNumber s).2.length ≤ s.length := by
  unfold takeNumber
  exact (List.dropWhile_sublist _).length_le

theorem parseSpec_length (st : FmtState) (s : PyStr) (x : FmtSpec × FmtState × PyStr) (h : parseSpec st s = .ok x) :
    x.2.2.length < s.length := by
  have h1 := takeFlags_length s {}
  unfold parseSpec at h
  dsimp only at h
  split at h
  · cases h
  · next sp st' s1 hw =>
    have h2 : s1.length ≤ (takeFlags {} s).2.length := by
      unfold takeWidth at hw
      split at hw
      · split at hw
        · cases hw
        · simp only [Except.ok.injEq, Prod.mk.injEq] at hw
          rw [← hw.2.2, List.length_drop]; omega
      · simp only [Except.ok.injEq, Prod.mk.injEq] at hw
        rw [← hw.2.2]; exact takeNumber_length _
    split at h
    · cases h
    · next sp2 st2 s2 hp =>
      have h3 : s2.length ≤ s1.length := by
        unfold takePrec at hp
        split at hp
        · split at hp
          · split at hp
            · cases hp
            · simp only [Except.ok.injEq, Prod.mk.injEq] at hp
              rw [← hp.2.2, List.length_drop]; omega
          · simp only [Except.ok.injEq, Prod.mk.injEq] at hp
            rw [← hp.2.2]
            have := takeNumber_length (s1.drop 1)
            rw [List.length_drop] at this
            omega
        · simp only [Except.ok.injEq, Prod.mk.injEq] at hp
          rw [← hp.2.2]
          exact Nat.le_refl _
      split at h
      · cases h
      · next sp3 s3 hc =>
        have h4 : s3.length < s2.length := by
          unfold takeConv at hc
          dsimp only at hc
          split at hc
          · cases hc
          · next c s4 he =>
            simp only [Except.ok.injEq, Prod.mk.injEq] at hc
            have := congrArg List.length he
            split at this
            · rw [List.length_drop, List.length_cons] at this
              rw [← hc.2]; omega
            · rw [List.length_cons] at this
              rw [← hc.2]; omega
        simp only [Except.ok.injEq] at h
        rw [← h]
        show s3.length < s.length
        omega

theorem parseField_length (dict : PyStr → Option FmtVal) (st : FmtState) (s : PyStr) (x : FmtSpec × FmtState × PyStr)
    (h : parseField dict st s = .ok x) : x.2.2.length < s.length := by
  unfold parseField at h
  split at h
  · split at h
    · cases h
    · next key r hk =>
      have := takeKey_length _ _ _ _ hk
      rw [List.length_drop] at this
      split at h
      · cases h
      · have h' := parseSpec_length _ _ _ h
        omega
  · exact parseSpec_length _ _ _ h

/-- unicodeobject.c `PyUnicode_Format(format, mapping)`. -/
def pyFormat (env : FmtEnv) (dict : PyStr → Option FmtVal) (st : FmtState) (s : PyStr) : Except PyErr PyStr :=
  match s with
  | [] => .ok []
  | c :: s =>
    if c ≠ 0x25 then consOk c (pyFormat env dict st s)
    else
      match _h : parseField dict st s with
      | .error e => .error e
      | .ok (sp, st, rest) =>
        if sp.conv = 0x25 then consOk 0x25 (pyFormat env dict st rest)
        else
          match nextArg st with
          | .error e => .error e
          | .ok (v, st) =>
            match fmtValue env sp v with
            | .error e => .error e
            | .ok t => appendOk t (pyFormat env dict st rest)
termination_by s.length
decreasing_by
  · simp
  · have := parseField_length _ _ _ _ _h; simp only [List.length_cons]; dsimp only at this; omega
  · have := parseField_length _ _ _ _ _h; simp only [List.length_cons]; dsimp only at this; omega

/-! ### The commands -/

/-- proc/models.py:233-234 `transform_model_formattable(model)`; `others` gives the members that are neither numbers nor
texts. -/
def modelDict (others : PModel Fields → PyStr → Option FmtVal) (m : PModel Fields) (key : PyStr) : Option FmtVal :=
  if key = lit "type" then some (.str (lit m.type))
  else if key = lit "seqno" then some (.int m.record.seqno)
  else if key = lit "level" then some (.int m.record.level)
  else if key = lit "tagid" then some (.int m.record.tagid)
  else if key = lit "tagname" then some (.str (tagname m.record.tagid))
  else if key = lit "size" then some (.int m.record.size)
  else others m key

/-- proc/models.py:226-230 `print_model_with_format(fmt)`. `whole` is the text of the whole model. -/
def modelFormatted (env : FmtEnv) (others : PModel Fields → PyStr → Option FmtVal) (whole : PModel Fields → PyStr) (fmt : PyStr)
    (m : PModel Fields) : Except PyErr PyStr :=
  pyFormat env (modelDict others m) ⟨.other (whole m), false⟩ fmt

/-- proc/models.py:196-200, 212-216, 226-230: what `--format` writes. -/
def modelsFormat (names : PyStr → Option Nat) (env : FmtEnv) (others : PModel Fields → PyStr → Option FmtVal)
    (whole : PModel Fields → PyStr) (fmt : PyStr) (g : Gen (PModel Fields)) : Gen Nat :=
  match unicodeUnescape names fmt with
  | .error e => .raise e
  | .ok fmt => writeEach (modelFormatted env others whole fmt) g.err g.out

/-- proc/find.py:203, 209, 214, 227-228: the members of a model that was found. -/
def foundDict (others : PModel Fields → PyStr → Option FmtVal) (m : FoundModel) (key : PyStr) : Option FmtVal :=
  if key = lit "filename" then some (.str m.filename)
  else if key = lit "stream" then some (.str m.stream)
  else modelDict others m.model key

/-- proc/find.py:218-229 `print_model(model)`: the line, without `--dump`; the format is used as it is given. -/
def foundFormatted (env : FmtEnv) (others : PModel Fields → PyStr → Option FmtVal) (whole : FoundModel → PyStr)
    (fmt : Option PyStr) (m : FoundModel) : Except PyErr PyStr :=
  let fmt := match fmt with
    | some (c :: cs) => c :: cs
    | _ => lit "%(filename)s %(stream)s %(seqno)s %(tagname)s %(type)s"
  match pyFormat env (foundDict others m) ⟨.other (whole m), false⟩ fmt with
  | .error e => .error e
  | .ok t => .ok (t ++ [0x0a])

end Hwp
