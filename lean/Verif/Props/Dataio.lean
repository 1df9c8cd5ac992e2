/- Properties C30-C35, C40 and C59: primitive and derived types. -/
import Verif.Proofs.Enum
set_option linter.unusedSimpArgs false
namespace Hwp.Props
open Hwp Hwp.Spec

/-! ### C30 bit groups -/

/-- C30: a bit group is the number formed by its bits. -/
theorem C30_group_is_its_bits (lsb msb v : Nat) :
    bitGroup lsb msb v = bitsNumber v lsb (msb + 1 - lsb) := by
  apply Nat.eq_of_testBit_eq
  intro i
  rw [bitGroup_testBit, bitsNumber_testBit]

/-- C30: two values have the same group iff they have the same bits there. -/
theorem C30_group_depends_on_its_bits_only (lsb msb v w : Nat) :
    bitGroup lsb msb v = bitGroup lsb msb w ↔
      ∀ i, lsb ≤ i → i ≤ msb → v.testBit i = w.testBit i := by
  constructor
  · intro h i h1 h2
    have := congrArg (fun n => n.testBit (i - lsb)) h
    simp only [bitGroup_testBit] at this
    have e : lsb + (i - lsb) = i := by omega
    have d : i - lsb < msb + 1 - lsb := by omega
    simpa [e, d] using this
  · intro h
    apply Nat.eq_of_testBit_eq
    intro i
    rw [bitGroup_testBit, bitGroup_testBit]
    by_cases hi : i < msb + 1 - lsb
    · rw [h (lsb + i) (by omega) (by omega)]
    · simp [hi]

/-- C30: a group fits its declared width. -/
theorem C30_group_range (lsb msb v : Nat) : bitGroup lsb msb v < 2 ^ (msb + 1 - lsb) := by
  apply Nat.lt_pow_two_of_testBit
  intro i hi
  rw [bitGroup_testBit]
  have : ¬ i < msb + 1 - lsb := by omega
  simp [this]

/-- C30: groups are independent: any group can take any value of its width
without affecting the groups that do not overlap it. -/
theorem C30_disjoint_groups_independent (lsb msb v x : Nat) (hx : x < 2 ^ (msb + 1 - lsb)) :
    ∃ v', bitGroup lsb msb v' = x ∧
      ∀ l m, (m < lsb ∨ msb < l) → bitGroup l m v' = bitGroup l m v := by
  have hex : ∀ n : Nat, ∃ v' : Nat, ∀ i, v'.testBit i =
      if lsb ≤ i ∧ i < lsb + n then x.testBit (i - lsb) else v.testBit i := by
    intro n
    induction n with
    | zero =>
      refine ⟨v, fun i => ?_⟩
      rw [if_neg (by omega)]
    | succ n ih =>
      obtain ⟨w, hw⟩ := ih
      have key : ∀ b : Bool, ∃ w' : Nat, ∀ i, w'.testBit i = if i = lsb + n then b else w.testBit i := by
        intro b
        cases hb : (w.testBit (lsb + n) == b)
        · refine ⟨w ^^^ 2 ^ (lsb + n), fun i => ?_⟩
          rw [Nat.testBit_xor, Nat.testBit_two_pow]
          by_cases hi : i = lsb + n
          · subst hi
            simp only [beq_eq_false_iff_ne] at hb
            simp
            cases b <;> cases h : w.testBit (lsb + n) <;> simp_all
          · have h2 : ¬ lsb + n = i := fun e => hi e.symm
            rw [if_neg hi, decide_eq_false h2]; simp
        · refine ⟨w, fun i => ?_⟩
          simp at hb
          by_cases hi : i = lsb + n
          · subst hi; simp [hb]
          · rw [if_neg hi]
      obtain ⟨w', hw'⟩ := key (x.testBit n)
      refine ⟨w', fun i => ?_⟩
      rw [hw', hw]
      by_cases hi : i = lsb + n
      · subst hi
        rw [if_pos rfl, if_pos (by omega)]
        congr 1; omega
      · rw [if_neg hi]
        by_cases h2 : lsb ≤ i ∧ i < lsb + n
        · rw [if_pos h2, if_pos (by omega)]
        · rw [if_neg h2, if_neg (by omega)]
  obtain ⟨v', hv'⟩ := hex (msb + 1 - lsb)
  refine ⟨v', ?_, ?_⟩
  · apply Nat.eq_of_testBit_eq
    intro i
    rw [bitGroup_testBit, hv']
    by_cases hi : i < msb + 1 - lsb
    · rw [if_pos (by omega)]
      have e : lsb + i - lsb = i := by omega
      rw [e]; simp [hi]
    · simp only [hi, decide_false, Bool.and_false]
      refine (Nat.testBit_lt_two_pow (Nat.lt_of_lt_of_le hx ?_)).symm
      exact Nat.pow_le_pow_right (by omega) (by omega)
  · intro l m hlm
    rw [C30_group_depends_on_its_bits_only]
    intro i h1 h2
    rw [hv', if_neg (by omega)]

/-- C30: groups that cover all bits of the base type determine the value. -/
theorem C30_covering_groups_determine_value (w : Nat) (groups : List (Nat × Nat)) (v v' : Nat)
    (hv : v < 2 ^ w) (hv' : v' < 2 ^ w)
    (hcover : ∀ i < w, ∃ g ∈ groups, g.1 ≤ i ∧ i ≤ g.2)
    (heq : ∀ g ∈ groups, bitGroup g.1 g.2 v = bitGroup g.1 g.2 v') : v = v' := by
  apply Nat.eq_of_testBit_eq
  intro i
  by_cases hi : i < w
  · obtain ⟨g, hg, h1, h2⟩ := hcover i hi
    exact (C30_group_depends_on_its_bits_only _ _ _ _).1 (heq g hg) i h1 h2
  · have hp : 2 ^ w ≤ 2 ^ i := Nat.pow_le_pow_right (by omega) (by omega)
    rw [Nat.testBit_lt_two_pow (Nat.lt_of_lt_of_le hv hp),
      Nat.testBit_lt_two_pow (Nat.lt_of_lt_of_le hv' hp)]

-- bits 2..4 of 0b1011_0110 are 0b101
example : bitGroup 2 4 0b10110110 = 0b101 := by decide
example : ∀ i < 8, ∃ g ∈ [(0, 2), (3, 3), (4, 7)], g.1 ≤ i ∧ i ≤ g.2 := by decide

/-! ### C31 flags declarations -/

/-- C31: every sequence of declarations in any of the four forms is understood as
written. -/
theorem C31_forms_parsed (fs : List FlagForm) :
    parseFlagsArgs (fs.flatMap FlagForm.args) = .ok (fs.map FlagForm.group) :=
  parseFlagsArgs_forms fs

/-- C31: nothing else is accepted, and the groups are the declared ones. -/
theorem C31_only_forms_accepted (args : List FlagArg) (gs : List FlagGroup) :
    parseFlagsArgs args = .ok gs ↔
      ∃ fs : List FlagForm, args = fs.flatMap FlagForm.args ∧ gs = fs.map FlagForm.group :=
  ⟨parseFlagsArgs_ok args gs, fun ⟨fs, h1, h2⟩ => by rw [h1, h2]; exact parseFlagsArgs_forms fs⟩

/-- C31: anything else is an assertion failure. -/
theorem C31_rejection (args : List FlagArg) (e : PyErr) (h : parseFlagsArgs args = .error e) :
    e = .assertionError := parseFlagsArgs_error args e h

example : parseFlagsArgs [.int 0, .name "a", .int 1, .int 3, .type 7, .name "b", .int 4, .type 8,
    .name "c", .int 5, .int 7, .name "d"] =
    .ok [⟨"a", 0, 0, none⟩, ⟨"b", 1, 3, some 7⟩, ⟨"c", 4, 4, some 8⟩, ⟨"d", 5, 7, none⟩] := by
  decide +kernel
example : parseFlagsArgs [.int 0, .int 1, .int 2, .name "a"] = .error .assertionError := by
  decide +kernel

/-! ### C32 enums -/

/-- C32: a declaration is accepted iff its names are distinct. -/
theorem C32_declaration_accepted (items : List String) (more : List (String × Int)) :
    (∃ d, enumType items more = .ok d) ↔ ((enumDecls items more).map (·.1)).Nodup := by
  rcases enumType_cases items more with ⟨d, h, hi⟩ | ⟨h, hn⟩
  · exact ⟨fun _ => hi.nodup, fun _ => ⟨d, h⟩⟩
  · constructor
    · rintro ⟨d, hd⟩; rw [hd] at h; simp at h
    · intro hd; exact absurd hd hn

/-- C32: constructing an enum object from any integer preserves the integer. -/
theorem C32_value_preserved (items : List String) (more : List (String × Int)) (d : EnumDef)
    (h : enumType items more = .ok d) (v : Int) : (d.call v).value = v := by
  rcases enumType_cases items more with ⟨d', h', hi⟩ | ⟨h', _⟩
  · rw [h] at h'; injection h' with e; subst e
    unfold EnumDef.call
    split
    · rename_i i hs; exact (hi.value v i hs).1
    · rfl
  · rw [h] at h'; simp at h'

/-- C32: a declared name is an attribute with the declared number, and constructing
from that number gives that very object. -/
theorem C32_named_member (items : List String) (more : List (String × Int)) (d : EnumDef)
    (h : enumType items more = .ok d) (n : String) (v : Int) (hm : (n, v) ∈ enumDecls items more) :
    ∃ i, d.attr n = some i ∧ i.value = v ∧ d.call v = i := by
  rcases enumType_cases items more with ⟨d', h', hi⟩ | ⟨h', _⟩
  · rw [h] at h'; injection h' with e; subst e
    obtain ⟨i, h1, h2⟩ := hi.byName n v hm
    exact ⟨i, h1, (hi.value v i h2).1, by simp [EnumDef.call, h2]⟩
  · rw [h] at h'; simp at h'

/-- C32: the name of an object is the first name declared for its number; numbers
without a declaration have no name. -/
theorem C32_name_of_value (items : List String) (more : List (String × Int)) (d : EnumDef)
    (h : enumType items more = .ok d) (v : Int) :
    d.nameOf (d.call v) = firstName (enumDecls items more) v := by
  have hv := C32_value_preserved items more d h v
  rcases enumType_cases items more with ⟨d', h', hi⟩ | ⟨h', _⟩
  · rw [h] at h'; injection h' with e; subst e
    unfold EnumDef.nameOf
    rw [hv, hi.names]
  · rw [h] at h'; simp at h'

/-- C32: positional names are numbered 0, 1, 2, … -/
theorem C32_positional_numbers (items : List String) (more : List (String × Int)) (i : Nat)
    (hi : i < items.length) : (items[i], (i : Int)) ∈ enumDecls items more := by
  unfold enumDecls
  rw [List.mem_append]; left
  rw [List.mem_iff_getElem]
  exact ⟨i, by simpa using hi, by simp⟩

example : ((enumType ["a", "b"] [("x", 1), ("z", 9)]).map fun d =>
    [d.nameOf (d.call 0), d.nameOf (d.call 1), d.nameOf (d.call 9), d.nameOf (d.call 5)]) =
    .ok [some "a", some "b", some "z", none] := by decide +kernel
example : (enumType ["a", "b"] [("a", 7)]).map (fun d => d.fresh) = .error .assertionError := by
  decide +kernel

/-! ### C33 integers -/

/-- C33: reading the encoding of a representable number gives the number and stops
right behind it. -/
theorem C33_read_encoded (t : Prim) (v : Int) (rest : Bytes) (h : InRange t v) :
    t.read (encodeInt t v ++ rest) = .ok (v, rest) := by
  unfold Prim.read
  rw [readn_append (by simp [encodeInt, fmtInfo_eq]) (by rw [fmtInfo_eq]; exact width_pos t)]
  simp only [bind, Except.bind, pure, Except.pure]
  rw [unpack_encode t v h]

/-- C33: whatever is read is in range and its encoding is what was consumed. -/
theorem C33_encode_read (t : Prim) (s rest : Bytes) (v : Int) (h : t.read s = .ok (v, rest)) :
    InRange t v ∧ s = encodeInt t v ++ rest := by
  unfold Prim.read at h
  simp only [bind, Except.bind, pure, Except.pure] at h
  split at h
  · simp at h
  · rename_i p hp
    obtain ⟨d, r⟩ := p
    simp only at h
    split at h
    · simp at h
    · rename_i v' hv
      simp at h
      obtain ⟨rfl, rfl⟩ := h
      have he := encode_unpack t d v' hv
      exact ⟨he.1, by rw [he.2]; exact (readn_ok hp).1⟩

/-- C33: every byte string that is long enough is readable, others are errors. -/
theorem C33_read_total (t : Prim) (s : Bytes) :
    (∃ p, t.read s = .ok p) ↔ width t ≤ s.length := by
  constructor
  · rintro ⟨⟨v, r⟩, h⟩
    have := (C33_encode_read t s r v h).2
    rw [this]; simp [encodeInt]
  · intro h
    have hs : s = s.take (width t) ++ s.drop (width t) := by simp
    have hl : (s.take (width t)).length = width t := by simp; omega
    unfold Prim.read
    rw [hs, readn_append (by rw [fmtInfo_eq]; exact hl) (by rw [fmtInfo_eq]; exact width_pos t)]
    simp only [bind, Except.bind, pure, Except.pure]
    unfold structUnpack
    rw [fmtInfo_eq]
    simp only [hl, ne_eq, not_true, if_false]
    split
    · rename_i h; split at h <;> simp at h
    · exact ⟨_, rfl⟩

example : Prim.INT16.read [0xfe, 0xff, 7] = .ok (-2, [7]) := by decide +kernel
example : Prim.HWPUNIT.read [0xfe, 0xff, 0xff, 0xff] = .ok (0xfffffffe, []) := by decide +kernel
example : InRange .INT32 (-2147483648) ∧ ¬ InRange .INT32 2147483648 := by
  simp [InRange, signed, width]

/-! ### C34 strings -/

/-- C34: a written string is read back, whatever follows. -/
theorem C34_read_encoded (s : PyStr) (rest : Bytes) (hs : ∀ c ∈ s, Scalar c)
    (hl : (strUnits s).length < 65536) :
    bstrRead (encodeBstr s ++ rest) = .ok (s, rest) := by
  unfold bstrRead encodeBstr
  rw [List.append_assoc, readU_append (by simpa using hl) (by omega)]
  simp only [bind, Except.bind, pure, Except.pure]
  split
  · rename_i h0
    have : s = [] := by
      cases s with
      | nil => rfl
      | cons c s =>
        rw [strUnits_cons] at h0
        exfalso
        revert h0
        unfold units
        split <;> simp
    subst this
    rfl
  · rename_i h0
    rw [readn_append (encodeUtf16le_length s) (by omega)]
    simp only
    rw [utf16leDecode_encode s hs]

/-- C34: whatever is read was written there, unless the stream ended early: then a
shorter string is returned without an error. -/
theorem C34_encode_read (b rest : Bytes) (s : PyStr) (h : bstrRead b = .ok (s, rest)) :
    (∀ c ∈ s, Scalar c) ∧
    (b = encodeBstr s ++ rest ∨
      (rest = [] ∧ ∃ n, (strUnits s).length < n ∧ n < 65536 ∧ b = leBytes 2 n ++ encodeUtf16le s)) := by
  unfold bstrRead at h
  simp only [bind, Except.bind, pure, Except.pure] at h
  split at h
  · simp at h
  · rename_i p hp
    obtain ⟨n, r⟩ := p
    obtain ⟨d, hb, hd, hn⟩ := readU_ok hp
    have hnl : n < 65536 := by have := leNat_lt d; rw [hd, hn] at this; simpa using this
    have hdb : leBytes 2 n = d := by rw [← hd, ← hn]; exact leBytes_leNat d
    simp only at h
    split at h
    · rename_i h0
      simp at h
      obtain ⟨rfl, rfl⟩ := h
      refine ⟨by simp, Or.inl ?_⟩
      rw [hb, ← hdb, h0]; rfl
    · rename_i h0
      split at h
      · simp at h
      · rename_i q hq
        obtain ⟨dat, r'⟩ := q
        simp only at h
        split at h
        · simp at h
        · rename_i str hstr
          simp at h
          obtain ⟨rfl, rfl⟩ := h
          obtain ⟨h1, h2⟩ := encode_utf16leDecode dat str hstr
          obtain ⟨h3, _, h4⟩ := readn_ok hq
          refine ⟨h2, ?_⟩
          have hlen := encodeUtf16le_length str
          rw [h1] at hlen
          rcases h4 with h4 | ⟨h4, h5⟩
          · left
            have : (strUnits str).length = n := by omega
            rw [hb, h3, ← hdb, encodeBstr, this, h1]; simp
          · right
            refine ⟨h5, n, by omega, hnl, ?_⟩
            rw [hb, h3, ← hdb, h1, h5]; simp

/-- C34: a string cut off by the end of the stream is accepted as a shorter one. -/
theorem C34_truncated_string_accepted :
    bstrRead [3, 0, 0x61, 0, 0x62, 0] = .ok ([0x61, 0x62], []) := by decide +kernel

example : bstrRead (encodeBstr [0x61, 0x1F600, 0xAC00] ++ [9]) = .ok ([0x61, 0x1F600, 0xAC00], [9]) := by
  decide +kernel

/-! ### C35 hex dump -/

/-- C35: the dump determines the bytes. -/
theorem C35_dump_lossless (d : Bytes) : undump (hexdump false d) = some d := by
  simp only [hexdump, dumpbytes, Bool.false_eq_true, if_false, List.nil_append]
  exact dumpLoop_undump 0 d

/-- C35: 16 bytes per line: line `i` shows bytes `16 i` to `16 i + 15`, and there is
at least one line. -/
theorem C35_sixteen_per_line (d : Bytes) :
    (dumpbytes false d).length = max 1 ((d.length + 15) / 16) ∧
    ∀ i (h : i < (dumpbytes false d).length),
      undump (dumpbytes false d)[i] = some ((d.drop (16 * i)).take 16) := by
  have e : dumpbytes false d = dumpLoop false 0 d := by simp [dumpbytes]
  refine ⟨by rw [e]; exact dumpLoop_length 0 d, ?_⟩
  intro i h
  have h' : i < (dumpLoop false 0 d).length := by rw [← e]; exact h
  have this : (dumpbytes false d)[i]'h = (dumpLoop false 0 d)[i]'h' := by simp only [e]
  refine (congrArg undump this).trans ?_
  rw [dumpLoop_getElem 0 d i h']
  have := undump_join ((d.drop (16 * i)).take 16) []
  rw [List.append_nil] at this
  rw [this]; simp [undump]

/-- C35: with crust there is a header line, and line `i` carries in addition the
offset `16 i`. -/
theorem C35_crust (d : Bytes) :
    ∃ offsets : List (List Char), offsets.length = (dumpbytes false d).length ∧
      (∀ i (h : i < offsets.length), hexNumber 0 offsets[i] = some (16 * i)) ∧
      dumpbytes true d = dumpHeader ::
        (List.zipWith (fun o l => o ++ ": ".toList ++ l) offsets (dumpbytes false d)) := by
  refine ⟨(List.range (dumpbytes false d).length).map (fun i => hex05 i ++ ['0']), by simp, ?_, ?_⟩
  · intro i h
    simp only [List.getElem_map, List.getElem_range]
    rw [hexNumber_append, hexNumber_hex05]
    have : hexVal '0' = some 0 := by decide +kernel
    simp [hexNumber, this]
  · simp only [dumpbytes, if_true, Bool.false_eq_true, if_false, List.nil_append,
      List.cons_append, List.singleton_append]
    rw [dumpLoop_crust]
    congr 1
    apply List.ext_getElem
    · simp
    · intro i h1 h2
      simp

example : hexdump false [0, 255, 16] = "00 ff 10".toList := by decide +kernel
example : (dumpbytes true (List.replicate 17 7)).map String.ofList =
    ["\t 0  1  2  3  4  5  6  7  8  9  A  B  C  D  E  F",
     "000000: 07 07 07 07 07 07 07 07 07 07 07 07 07 07 07 07", "000010: 07"] := by decide +kernel

/-! ### C40 interned array types -/

/-- C40: in any history of requests, two requests give the same type iff they have
the same parameters. -/
theorem C40_same_type_iff_same_parameters {κ : Type} [BEq κ] [LawfulBEq κ] (history : List κ)
    (i j : Nat) (hi : i < history.length) (hj : j < history.length) :
    (({} : ClassTable κ).requests history)[i]'(by rw [requests_length]; exact hi) =
      (({} : ClassTable κ).requests history)[j]'(by rw [requests_length]; exact hj) ↔
    history[i] = history[j] :=
  requests_eq_iff history ⟨by simp, by simp⟩ i j hi hj

example : ({} : ClassTable (Nat × Nat)).requests [(1, 2), (1, 3), (1, 2), (2, 1)] = [0, 1, 0, 2] := by
  decide +kernel

/-! ### C59 colors -/

/-- C59: the channels are the four bytes of the stored 32-bit number. -/
theorem C59_channels_are_bytes (v : Int) :
    encodeInt .INT32 v =
      [UInt8.ofNat (Colorref.r v), UInt8.ofNat (Colorref.g v), UInt8.ofNat (Colorref.b v),
       UInt8.ofNat (Colorref.a v)] ∧
    Colorref.r v < 256 ∧ Colorref.g v < 256 ∧ Colorref.b v < 256 ∧ Colorref.a v < 256 := by
  have h0 : Colorref.r v = (v % 2 ^ 32).toNat % 256 := by
    have := pyAnd32_channel v 0 (by omega); simpa [Colorref.r] using this
  have h1 : Colorref.g v = (v % 2 ^ 32).toNat / 256 % 256 := by
    have := pyAnd32_channel v 1 (by omega); simpa [Colorref.g] using this
  have h2 : Colorref.b v = (v % 2 ^ 32).toNat / 65536 % 256 := by
    have := pyAnd32_channel v 2 (by omega); simpa [Colorref.b] using this
  have h3 : Colorref.a v = (v % 2 ^ 32).toNat / 16777216 % 256 := by
    have := pyAnd32_channel v 3 (by omega); simpa [Colorref.a] using this
  refine ⟨?_, by omega, by omega, by omega, by omega⟩
  rw [h0, h1, h2, h3]
  simp only [encodeInt, width, leBytes]
  generalize (v % 2 ^ (8 * 4)).toNat = n
  simp [Nat.div_div_eq_div_mul]

/-- C59: the channels determine the color. -/
theorem C59_channels_determine_color (v w : Int) (hv : InRange .INT32 v) (hw : InRange .INT32 w)
    (hr : Colorref.r v = Colorref.r w) (hg : Colorref.g v = Colorref.g w)
    (hb : Colorref.b v = Colorref.b w) (ha : Colorref.a v = Colorref.a w) : v = w := by
  have h1 := C33_read_encoded .INT32 v [] hv
  have h2 := C33_read_encoded .INT32 w [] hw
  rw [(C59_channels_are_bytes v).1, hr, hg, hb, ha, ← (C59_channels_are_bytes w).1, h2] at h1
  simp at h1
  exact h1.symm

/-- C59: the text is `#` and two hexadecimal digits for red, green and blue. -/
theorem C59_text (v : Int) :
    ∃ x y z : List Char, Colorref.str v = '#' :: (x ++ y ++ z) ∧
      x.length = 2 ∧ y.length = 2 ∧ z.length = 2 ∧
      hexNumber 0 x = some (Colorref.r v) ∧ hexNumber 0 y = some (Colorref.g v) ∧
      hexNumber 0 z = some (Colorref.b v) := by
  obtain ⟨-, h1, h2, h3, -⟩ := C59_channels_are_bytes v
  have e : ∀ n < 256, Colorref.hex2 n = hex02 (UInt8.ofNat n) ∧ (UInt8.ofNat n).toNat = n := by
    intro n hn
    have : (UInt8.ofNat n).toNat = n := by simp; omega
    exact ⟨by rw [← hex2_byte, this], this⟩
  refine ⟨_, _, _, rfl, ?_⟩
  rw [(e _ h1).1, (e _ h2).1, (e _ h3).1]
  simp only [hexNumber_hex02, (e _ h1).2, (e _ h2).2, (e _ h3).2]
  simp [hex02]

example : String.ofList (Colorref.str (-1)) = "#ffffff" ∧ Colorref.a (-1) = 255 := by decide +kernel
example : String.ofList (Colorref.str 0x00030a) = "#0a0300" := by decide +kernel

end Hwp.Props
