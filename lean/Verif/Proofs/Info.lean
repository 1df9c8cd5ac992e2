/-
Proofs about the information commands.
-/
import Verif.Model.Info
import Verif.Spec.Info
import Verif.Proofs.Utf8
import Verif.Proofs.DocSummary
import Verif.Proofs.XmlText
import Verif.Props.Filestructure
import Verif.Props.Filetime
set_option linter.unusedSimpArgs false
set_option linter.unusedVariables false
namespace Hwp
open Spec

/-! ### Encoding -/

theorem utf8Encode_append_eq (a b : PyStr) (x y : Bytes) (ha : utf8Encode a = .ok x) (hb : utf8Encode b = .ok y) :
    utf8Encode (a ++ b) = .ok (x ++ y) := by
  apply encode_decode
  rw [decode_encode_append a x y ha, decode_encode b y hb]
  rfl

theorem utf8Encode_ascii (s : PyStr) (h : ∀ c ∈ s, c < 0x80) : ∃ b, utf8Encode s = .ok b := by
  rw [utf8Encode_ok]
  intro c hc
  have := h c hc
  unfold Scalar
  omega

/-! ### Printing -/

theorem printAll_lines {α : Type} (text : α → Except PyErr Bytes) : ∀ (as : List α) (ls : List PyStr),
    List.Forall₂ (fun a l => ∃ b, text a = .ok b ∧ utf8Encode (l ++ [10]) = .ok b) as ls →
    ∃ b, printAll text as = (b, none) ∧ utf8Encode (unixLines ls) = .ok b := by
  intro as ls h
  induction h with
  | nil => exact ⟨[], rfl, rfl⟩
  | @cons a l as ls h1 _ ih =>
    obtain ⟨b, hb1, hb2⟩ := h1
    obtain ⟨r, hr1, hr2⟩ := ih
    refine ⟨b ++ r, ?_, ?_⟩
    · rw [printAll, hb1]
      simp only [hr1]
    · have : unixLines (l :: ls) = (l ++ [10]) ++ unixLines ls := rfl
      rw [this]
      exact utf8Encode_append_eq _ _ _ _ hb2 hr2

theorem printAll_stops {α : Type} (text : α → Except PyErr Bytes) (a : α) (post : List α) (e : PyErr) (he : text a = .error e) :
    ∀ (pre : List α) (ls : List PyStr),
    List.Forall₂ (fun a l => ∃ b, text a = .ok b ∧ utf8Encode (l ++ [10]) = .ok b) pre ls →
    ∃ b, printAll text (pre ++ a :: post) = (b, some e) ∧ utf8Encode (unixLines ls) = .ok b := by
  intro pre ls h
  induction h with
  | nil => exact ⟨[], by rw [List.nil_append, printAll, he], rfl⟩
  | @cons a' l as ls h1 _ ih =>
    obtain ⟨b, hb1, hb2⟩ := h1
    obtain ⟨r, hr1, hr2⟩ := ih
    refine ⟨b ++ r, ?_, ?_⟩
    · rw [List.cons_append, printAll, hb1]
      simp only [hr1]
    · have : unixLines (l :: ls) = (l ++ [10]) ++ unixLines ls := rfl
      rw [this]
      exact utf8Encode_append_eq _ _ _ _ hb2 hr2

/-- What is printed is all or ends with the first failing item. -/
theorem printAll_inv {α : Type} (text : α → Except PyErr Bytes) : ∀ (as : List α),
    (∃ bs : List Bytes, List.Forall₂ (fun a b => text a = .ok b) as bs ∧ printAll text as = (bs.flatten, none)) ∨
    ∃ pre a post e, as = pre ++ a :: post ∧ text a = .error e ∧ (printAll text as).2 = some e := by
  intro as
  induction as with
  | nil => exact .inl ⟨[], .nil, rfl⟩
  | cons a as ih =>
    cases h : text a with
    | error e => exact .inr ⟨[], a, as, e, rfl, h, by rw [printAll, h]⟩
    | ok b =>
      rcases ih with ⟨bs, h1, h2⟩ | ⟨pre, a', post, e, rfl, h1, h2⟩
      · exact .inl ⟨b :: bs, .cons h h1, by rw [printAll, h]; simp [h2]⟩
      · exact .inr ⟨a :: pre, a', post, e, rfl, h1, by rw [printAll, h]; exact h2⟩

/-! ### Header -/

theorem bitDigit_eq (flags i : Nat) : natStr (bitGroup i i flags) = bitDigit flags i := by
  have h1 := bit_iff flags i
  have h2 : bitGroup i i flags < 2 := by
    unfold bitGroup
    have : i + 1 - i = 1 := by omega
    rw [this]
    have := Nat.and_le_right (n := flags >>> i) (m := 2 ^ 1 - 1)
    omega
  unfold bitDigit
  by_cases hb : flags.testBit i = true
  · rw [if_pos hb]
    have : bitGroup i i flags = 1 := by
      have : bitGroup i i flags ≠ 0 := by rw [h1]; exact hb
      omega
    rw [this]; decide +kernel
  · rw [if_neg hb]
    have : bitGroup i i flags = 0 := by
      have : ¬ bitGroup i i flags ≠ 0 := by rw [h1]; exact hb
      omega
    rw [this]; decide +kernel

theorem natStr_ascii (n : Nat) : ∀ c ∈ natStr n, c < 0x80 := by
  induction n using Nat.strongRecOn with
  | ind n ih =>
    intro c hc
    rw [natStr] at hc
    split at hc
    · simp only [List.mem_singleton] at hc; omega
    · rcases List.mem_append.1 hc with hc | hc
      · exact ih (n / 10) (by omega) c hc
      · simp only [List.mem_singleton] at hc; omega

theorem versionStr_four (a b c d : Nat) : versionStr [a, b, c, d] = dotted [a, b, c, d] := by
  simp only [versionStr, dotted, decimal_nat, List.append_assoc]

theorem dotted_ascii (v : List Nat) : ∀ c ∈ dotted v, c < 0x80 := by
  unfold dotted
  split
  · simp only [decimal_nat]
    intro c hc
    have hdot : ∀ c ∈ lit ".", c < 0x80 := by decide
    simp only [List.mem_append] at hc
    rcases hc with ((((((h | h) | h) | h) | h) | h) | h)
    all_goals first
      | exact natStr_ascii _ c h
      | exact hdot c h
  · simp

theorem bitDigit_ascii (f i : Nat) : ∀ c ∈ bitDigit f i, c < 0x80 := by
  unfold bitDigit
  split <;> decide

theorem sortedHeader (flags : Nat) (v : PyStr) (f : Nat → PyStr) :
    sortedItems ((fileHeaderFlags.map fun x => (lit x.1, f x.2)) ++
      [(lit "signature", lit "HWP Document File"), (lit "version", v)]) =
    [(lit "ccl", f 11), (lit "cert_drm", f 10), (lit "cert_encrypted", f 8), (lit "cert_signature_extra", f 9),
     (lit "cert_signed", f 7), (lit "compressed", f 0), (lit "distributable", f 2), (lit "drm", f 4), (lit "history", f 6),
     (lit "password", f 1), (lit "script", f 3), (lit "signature", lit "HWP Document File"), (lit "version", v),
     (lit "xmltemplate_storage", f 5)] := by
  rfl

theorem insertKey_mem (k v : PyStr) (items : List (PyStr × PyStr)) (x : PyStr × PyStr) (h : x ∈ insertKey k v items) :
    x = (k, v) ∨ x ∈ items := by
  induction items with
  | nil => simpa [insertKey] using h
  | cons a as ih =>
    obtain ⟨k', v'⟩ := a
    unfold insertKey at h
    split at h
    · rcases List.mem_cons.1 h with h | h
      · exact .inr (by rw [h]; exact List.mem_cons_self)
      · rcases ih h with h | h
        · exact .inl h
        · exact .inr (List.mem_cons_of_mem _ h)
    · exact List.mem_cons.1 h

theorem sortedItems_mem (items : List (PyStr × PyStr)) (x : PyStr × PyStr) (h : x ∈ sortedItems items) : x ∈ items := by
  induction items with
  | nil => exact h
  | cons a as ih =>
    rcases insertKey_mem _ _ _ x h with h | h
    · rw [h]; exact List.mem_cons_self
    · exact List.mem_cons_of_mem _ (ih h)

theorem headerItems_ascii (flags : Nat) (v : List Nat) (kv : PyStr × PyStr)
    (h : kv ∈ sortedItems ((fileHeaderFlags.map fun x => (lit x.1, bitDigit flags x.2)) ++
      [(lit "signature", lit "HWP Document File"), (lit "version", dotted v)])) :
    (∀ c ∈ kv.1, c < 0x80) ∧ ∀ c ∈ kv.2, c < 0x80 := by
  rcases List.mem_append.1 (sortedItems_mem _ _ h) with h | h
  · obtain ⟨x, hx, rfl⟩ := List.mem_map.1 h
    have key : ∀ x ∈ fileHeaderFlags, ∀ c ∈ lit x.1, c < 0x80 := by decide +kernel
    exact ⟨key x hx, bitDigit_ascii _ _⟩
  · simp only [List.mem_cons, List.not_mem_nil, or_false] at h
    have k1 : ∀ c ∈ lit "signature", c < 0x80 := by decide
    have k2 : ∀ c ∈ lit "HWP Document File", c < 0x80 := by decide +kernel
    have k3 : ∀ c ∈ lit "version", c < 0x80 := by decide
    rcases h with rfl | rfl
    · exact ⟨k1, k2⟩
    · exact ⟨k3, dotted_ascii v⟩

/-- A line for each item. -/
def itemLine (kv : PyStr × PyStr) : PyStr := kv.1 ++ lit ": " ++ kv.2

theorem printItems (items : List (PyStr × PyStr)) (h : ∀ kv ∈ items, (∀ c ∈ kv.1, c < 0x80) ∧ ∀ c ∈ kv.2, c < 0x80) :
    ∃ bs, printAll (fun kv : PyStr × PyStr => utf8Encode (kv.1 ++ lit ": " ++ kv.2 ++ lit "\n")) items = (bs, none) ∧
      utf8Encode (unixLines (items.map itemLine)) = .ok bs := by
  apply printAll_lines
  induction items with
  | nil => exact .nil
  | cons kv items ih =>
    refine .cons ?_ (ih fun x hx => h x (List.mem_cons_of_mem _ hx))
    have e : lit "\n" = [10] := by decide
    have h2 : ∀ c ∈ lit ": ", c < 0x80 := by decide
    obtain ⟨hk, hv⟩ := h kv List.mem_cons_self
    rw [e]
    obtain ⟨x, hx⟩ := utf8Encode_ascii (kv.1 ++ lit ": " ++ kv.2 ++ [10]) (by
      intro c hc
      simp only [List.mem_append, List.mem_singleton] at hc
      rcases hc with ((h | h) | h) | h
      · exact hk c h
      · exact h2 c h
      · exact hv c h
      · omega)
    exact ⟨x, hx, hx⟩

theorem sortedHeader_lines (f : Nat → PyStr) (v : PyStr) :
    ([(lit "ccl", f 11), (lit "cert_drm", f 10), (lit "cert_encrypted", f 8), (lit "cert_signature_extra", f 9),
     (lit "cert_signed", f 7), (lit "compressed", f 0), (lit "distributable", f 2), (lit "drm", f 4), (lit "history", f 6),
     (lit "password", f 1), (lit "script", f 3), (lit "signature", lit "HWP Document File"), (lit "version", v),
     (lit "xmltemplate_storage", f 5)] : List (PyStr × PyStr)).map itemLine =
    [lit "ccl: " ++ f 11, lit "cert_drm: " ++ f 10, lit "cert_encrypted: " ++ f 8, lit "cert_signature_extra: " ++ f 9,
     lit "cert_signed: " ++ f 7, lit "compressed: " ++ f 0, lit "distributable: " ++ f 2, lit "drm: " ++ f 4,
     lit "history: " ++ f 6, lit "password: " ++ f 1, lit "script: " ++ f 3, lit "signature: HWP Document File",
     lit "version: " ++ v, lit "xmltemplate_storage: " ++ f 5] := by
  simp only [List.map_cons, List.map_nil, itemLine]
  rw [show lit "ccl" ++ lit ": " = lit "ccl: " from by decide +kernel,
    show lit "cert_drm" ++ lit ": " = lit "cert_drm: " from by decide +kernel,
    show lit "cert_encrypted" ++ lit ": " = lit "cert_encrypted: " from by decide +kernel,
    show lit "cert_signature_extra" ++ lit ": " = lit "cert_signature_extra: " from by decide +kernel,
    show lit "cert_signed" ++ lit ": " = lit "cert_signed: " from by decide +kernel,
    show lit "compressed" ++ lit ": " = lit "compressed: " from by decide +kernel,
    show lit "distributable" ++ lit ": " = lit "distributable: " from by decide +kernel,
    show lit "drm" ++ lit ": " = lit "drm: " from by decide +kernel,
    show lit "history" ++ lit ": " = lit "history: " from by decide +kernel,
    show lit "password" ++ lit ": " = lit "password: " from by decide +kernel,
    show lit "script" ++ lit ": " = lit "script: " from by decide +kernel,
    show lit "version" ++ lit ": " = lit "version: " from by decide +kernel,
    show lit "xmltemplate_storage" ++ lit ": " = lit "xmltemplate_storage: " from by decide +kernel,
    show lit "signature" ++ lit ": " ++ lit "HWP Document File" = lit "signature: HWP Document File" from by decide +kernel]

theorem headerText_eq (flags a b c d : Nat) :
    ∃ bs, headerText ⟨hwp5Signature, [a, b, c, d], flags⟩ = (bs, none) ∧
      utf8Encode (unixLines (headerLines flags [a, b, c, d])) = .ok bs := by
  have hs : (hwp5Signature.map UInt8.toNat).take (lit "HWP Document File").length = lit "HWP Document File" := by decide +kernel
  unfold headerText headerItems
  simp only [hs, bitDigit_eq, versionStr_four]
  obtain ⟨bs, h1, h2⟩ := printItems _ (headerItems_ascii flags [a, b, c, d])
  rw [sortedHeader flags (dotted [a, b, c, d]) (fun i => bitDigit flags i), sortedHeader_lines] at h2
  exact ⟨bs, h1, h2⟩

/-! ### Summary information -/

theorem propGet_mem (props : List Prop_) (id : Nat) (v : PropValue) (h : propGet props id = .ok v) : (id, v) ∈ props := by
  unfold propGet at h
  split at h
  · cases h
  · rename_i p hp
    cases h
    have h1 := List.find?_some hp
    have h2 := List.mem_of_find?_eq_some hp
    simp only [decide_eq_true_eq] at h1
    rw [← h1]
    exact h2

theorem fileTimeEnd_eq : fileTimeEnd = 2650467744000000000 := by
  unfold fileTimeEnd; rw [daysOfYears_9999, daysOfYears_1600]

theorem digits_ascii (w : Nat) : ∀ n, ∀ c ∈ digits w n, c < 0x80 := by
  induction w with
  | zero => intro n c hc; cases hc
  | succ w ih =>
    intro n c hc
    rcases List.mem_append.1 hc with hc | hc
    · exact ih _ c hc
    · simp only [List.mem_singleton] at hc; omega

theorem text_ascii (m : Moment) : ∀ c ∈ m.text, c < 0x80 := by
  intro c hc
  unfold Moment.text at hc
  simp only [List.mem_append, List.mem_singleton] at hc
  rcases hc with (((((((((((h | h) | h) | h) | h) | h) | h) | h) | h) | h) | h) | h)
  all_goals first
    | exact digits_ascii _ _ c h
    | omega
    | (split at h
       · cases h
       · rcases List.mem_cons.1 h with h | h
         · omega
         · exact digits_ascii _ _ c h)

theorem ascii_scalar (s : PyStr) (h : ∀ c ∈ s, c < 0x80) : ∀ c ∈ s, Scalar c := by
  intro c hc
  have := h c hc
  unfold Scalar
  omega

theorem intStr_ascii' (n : Int) : ∀ c ∈ intStr n, c < 0x80 := by
  unfold intStr
  split
  · intro c hc
    rcases List.mem_cons.1 hc with h | h
    · omega
    · exact natStr_ascii _ c h
  · exact natStr_ascii _

theorem propStr_shown (v : PropValue) (h : Showable v) : ∃ t, propStr v = .ok t ∧ ShownAs v t ∧ ∀ c ∈ t, Scalar c := by
  cases v with
  | i4 n => exact ⟨_, rfl, intStr_eq n, ascii_scalar _ (intStr_ascii' n)⟩
  | lpwstr s => exact ⟨_, rfl, rfl, h⟩
  | filetime n =>
    have h' : n + 160 < fileTimeEnd := h
    have hv : n < 2 ^ 64 := by rw [fileTimeEnd_eq] at h'; omega
    obtain ⟨t, ht⟩ := (Props.C95_range n hv).1 h'
    obtain ⟨m, hm, rfl, h1, h2, _⟩ := Props.C95_time_partial n hv t ht
    exact ⟨_, ht, ⟨m, hm, rfl, h2, h1⟩, ascii_scalar _ (text_ascii m)⟩
  | dictionary es => exact h.elim

/-- The values that are read have a range. -/
theorem propStr_inv (v : PropValue) (hv : ∀ n, v = .filetime n → n < 2 ^ 64) (t : PyStr) (h : propStr v = .ok t) : ShownAs v t := by
  cases v with
  | i4 n => cases h; exact intStr_eq n
  | lpwstr s => cases h; rfl
  | filetime n =>
    obtain ⟨m, hm, rfl, h1, h2, _⟩ := Props.C95_time_partial n (hv n rfl) t h
    exact ⟨m, hm, rfl, h2, h1⟩
  | dictionary es => cases h

theorem summaryLine_shown (data : Bytes) (l : String × Nat) (v : PropValue) (hl : ∀ c ∈ lit l.1, c < 0x80)
    (hg : summaryGet data l.2 = .ok v) (hv : Showable v) :
    ∃ t, ShownAs v t ∧ ∃ b, summaryLine data l = .ok b ∧ utf8Encode ((lit l.1 ++ t) ++ [10]) = .ok b := by
  obtain ⟨t, h1, h2, h3⟩ := propStr_shown v hv
  obtain ⟨x, hx⟩ := (utf8Encode_ok (lit l.1 ++ t)).2 (by
    intro c hc
    rcases List.mem_append.1 hc with hc | hc
    · exact ascii_scalar _ hl c hc
    · exact h3 c hc)
  refine ⟨t, h2, x ++ [10], ?_, utf8Encode_append_eq _ _ _ _ hx rfl⟩
  unfold summaryLine
  simp only [hg, h1, hx, bind, Except.bind, pure, Except.pure]

theorem summaryLines_shown (data : Bytes) : ∀ (ls : List (String × Nat)) (vs : List PropValue),
    (∀ l ∈ ls, ∀ c ∈ lit l.1, c < 0x80) →
    List.Forall₂ (fun l v => summaryGet data l.2 = .ok v ∧ Showable v) ls vs →
    ∃ ts : List PyStr, List.Forall₂ ShownAs vs ts ∧
      List.Forall₂ (fun l s => ∃ b, summaryLine data l = .ok b ∧ utf8Encode (s ++ [10]) = .ok b) ls
        (List.zipWith (fun l t => lit l.1 ++ t) ls ts) := by
  intro ls vs hl h
  induction h with
  | nil => exact ⟨[], .nil, .nil⟩
  | @cons l v ls vs h1 _ ih =>
    obtain ⟨ts, i1, i2⟩ := ih (fun l hm => hl l (List.mem_cons_of_mem _ hm))
    obtain ⟨t, t1, t2⟩ := summaryLine_shown data l v (hl l List.mem_cons_self) h1.1 h1.2
    exact ⟨t :: ts, .cons t1 i1, .cons t2 i2⟩

theorem summaryMain_data (c : Codec) (es : StgEntries) (d data : Bytes) (h : Header)
    (hd : es.lookup (ustr "FileHeader") = some (.stream d)) (hh : header d = .ok h) (hs : h.signature = hwp5Signature)
    (hi : es.lookup Obj.summaryName = some (.stream data)) :
    summaryMain c es = printAll (summaryLine data) summaryLabels := by
  have hf := hwp5File_of c es d h hd hh hs
  have ht := Props.C47_top_streams c es d h _ Obj.summaryName data hd hh hf hi
  have hn : topStream c h.flags Obj.summaryName data = data := by
    unfold topStream
    rw [if_neg]
    rintro ⟨_, _, h3⟩
    revert h3
    decide
  unfold summaryMain
  rw [hf]
  simp only [bind, Except.bind] at ht ⊢
  rw [hn] at ht
  split at ht
  · cases ht
  · rename_i a ha
    rw [ha]
    simp only [ht]

/-! ### What is read -/

/-- Values as they are read: strings of scalar values, 64 bit times. -/
def ReadRange : PropValue → Prop
  | .i4 _ => True
  | .lpwstr s => ∀ c ∈ s, Scalar c
  | .filetime n => n < 2 ^ 64
  | .dictionary es => ∀ e ∈ es, ∀ c ∈ e.2, c < 256

theorem mem_of_dropLast {α : Type} {a : α} {l : List α} (h : a ∈ l.dropLast) : a ∈ l := List.dropLast_subset l h

theorem readU_lt_parse {w v : Nat} {s r : Bytes} (h : orParseError (readU w s) = .ok (v, r)) : v < 256 ^ w := by
  cases hr : readU w s with
  | error e => rw [hr] at h; cases e <;> cases h
  | ok x =>
    rw [hr] at h
    cases h
    obtain ⟨d, _, rfl, rfl⟩ := readU_ok hr
    exact leNat_lt d

theorem readVt_range (code : Nat) (s : Bytes) (v : PropValue) (h : readVt code s = .ok v) : ReadRange v := by
  unfold readVt at h
  simp only [bind, Except.bind, pure, Except.pure] at h
  split at h
  · split at h
    · cases h
    · cases h; trivial
  · split at h
    · split at h
      · cases h
      split at h
      · cases h
      rename_i t ht
      cases h
      intro c hc
      exact (encode_utf16leDecode _ _ ht).2 c (mem_of_dropLast hc)
    · split at h
      · split at h
        · cases h
        rename_i a ha
        split at h
        · cases h
        rename_i b hb
        cases h
        obtain ⟨a1, a2⟩ := a
        obtain ⟨b1, b2⟩ := b
        have h1 := readU_lt_parse (w := 4) ha
        have h2 := readU_lt_parse (w := 4) hb
        show b1 <<< 32 ||| a1 < 2 ^ 64
        apply Nat.or_lt_two_pow
        · rw [Nat.shiftLeft_eq]; omega
        · omega
      · cases h

theorem readProperty_range (data : Bytes) (pos : Nat) (v : PropValue) (h : readProperty data pos = .ok v) : ReadRange v := by
  unfold readProperty at h
  split at h
  · cases h
  · exact readVt_range _ _ _ h

theorem readItems_mem {α : Type} (read : Bytes → Except PyErr (α × Bytes)) (P : α → Prop)
    (hp : ∀ s a r, read s = .ok (a, r) → P a) : ∀ (n : Nat) (s r : Bytes) (as : List α),
    readItems read n s = .ok (as, r) → ∀ a ∈ as, P a := by
  intro n
  induction n with
  | zero => intro s r as h; simp [readItems] at h; obtain ⟨rfl, _⟩ := h; simp
  | succ n ih =>
    intro s r as h
    simp only [readItems, bind, Except.bind, pure, Except.pure] at h
    split at h
    · cases h
    rename_i x hx
    split at h
    · cases h
    rename_i y hy
    cases h
    intro a ha
    rcases List.mem_cons.1 ha with rfl | ha
    · exact hp _ _ _ hx
    · exact ih _ _ _ hy a ha

theorem readNArray_mem {α : Type} (read : Bytes → Except PyErr (α × Bytes)) (P : α → Prop)
    (hp : ∀ s a r, read s = .ok (a, r) → P a) (s r : Bytes) (as : List α) (h : readNArray read s = .ok (as, r)) :
    ∀ a ∈ as, P a := by
  unfold readNArray at h
  simp only [bind, Except.bind, pure, Except.pure] at h
  split at h
  · cases h
  exact readItems_mem read P hp _ _ _ _ h

theorem readDictionary_range (data : Bytes) (pos : Nat) (v : PropValue) (h : readDictionary data pos = .ok v) : ReadRange v := by
  unfold readDictionary at h
  simp only [bind, Except.bind, pure, Except.pure] at h
  split at h
  · cases h
  rename_i x hx
  cases h
  refine readNArray_mem readDictEntry (fun e => ∀ c ∈ e.2, c < 256) ?_ _ _ _ hx
  intro s a r ha
  unfold readDictEntry at ha
  simp only [bind, Except.bind, pure, Except.pure] at ha
  split at ha
  · cases ha
  split at ha
  · cases ha
  rename_i y hy
  cases ha
  intro c hc
  refine readNArray_mem readByte (fun b => b < 256) ?_ _ _ _ hy c (mem_of_dropLast hc)
  intro s b r hb
  have := readU_lt_parse (w := 1) hb
  omega

theorem readOthers_range (data : Bytes) (off : Nat) (b : Bool) : ∀ (ds : List PropDesc) (ps : List Prop_),
    readOthers data off b ds = .ok ps → ∀ p ∈ ps, ReadRange p.2 := by
  intro ds
  induction ds with
  | nil => intro ps h; cases h; simp
  | cons d ds ih =>
    intro ps h
    unfold readOthers at h
    split at h
    · simp only [bind, Except.bind, pure, Except.pure] at h
      split at h
      · cases h
      rename_i v hv
      split at h
      · cases h
      rename_i rest hr
      cases h
      intro p hp
      rcases List.mem_cons.1 hp with rfl | hp
      · exact readProperty_range _ _ _ hv
      · exact ih _ hr p hp
    · cases h

theorem readPropertySet_range (data : Bytes) (off : Nat) (ps : List Prop_) (h : readPropertySet data off = .ok ps) :
    ∀ p ∈ ps, ReadRange p.2 := by
  unfold readPropertySet at h
  simp only [bind, Except.bind, pure, Except.pure, popDesc] at h
  split at h
  · cases h
  rename_i descs hd
  split at h
  · cases h
  rename_i cp hcp
  split at h
  · cases h
  rename_i dict hdict
  split at h
  · cases h
  rename_i others ho
  cases h
  intro p hp
  rw [List.mem_append, List.mem_append] at hp
  rcases hp with (hp | hp) | hp
  · obtain ⟨d, h1, h2, h3⟩ := readOptional_props _ _ _ _ hcp p hp
    exact readProperty_range _ _ _ h3
  · obtain ⟨d, h1, h2, h3⟩ := readOptional_props _ _ _ _ hdict p hp
    exact readDictionary_range _ _ _ h3
  · exact readOthers_range _ _ _ _ _ ho p hp

theorem readPropertySets_range (data : Bytes) : ∀ (l : List (List Nat × Nat)) (pss : List (List Prop_)),
    readPropertySets data l = .ok pss → ∀ ps ∈ pss, (∀ p ∈ ps, ReadRange p.2) ∧ PropsOk ps := by
  intro l
  induction l with
  | nil => intro pss h; cases h; simp
  | cons x l ih =>
    intro pss h
    obtain ⟨fmtid, off⟩ := x
    unfold readPropertySets at h
    simp only [bind, Except.bind, pure, Except.pure] at h
    split at h
    · cases h
    rename_i s hs
    split at h
    · cases h
    rename_i more hm
    cases h
    intro ps hps
    rcases List.mem_cons.1 hps with rfl | hps
    · exact ⟨readPropertySet_range _ _ _ hs, readPropertySet_props _ _ _ hs⟩
    · exact ih _ hm ps hps

theorem readPropertySetStream_range (data : Bytes) (clsid : List Nat) (pss : List (List Prop_))
    (h : readPropertySetStream data = .ok (clsid, pss)) : ∀ ps ∈ pss, (∀ p ∈ ps, ReadRange p.2) ∧ PropsOk ps := by
  unfold readPropertySetStream at h
  simp only [bind, Except.bind, pure, Except.pure] at h
  split at h
  · cases h
  split at h
  · cases h
  rename_i q hq
  cases h
  exact readPropertySets_range data _ _ hq

theorem summaryGet_range (data : Bytes) (id : Nat) (v : PropValue) (h : summaryGet data id = .ok v) :
    ReadRange v ∧ (id ≠ 0 → ∀ es, v ≠ .dictionary es) := by
  unfold summaryGet at h
  simp only [bind, Except.bind] at h
  split at h
  · cases h
  rename_i q hq
  obtain ⟨clsid, pss⟩ := q
  have hr := readPropertySetStream_range data clsid pss hq
  simp only at h
  split at h
  · split at h
    · cases h
    · rename_i props more
      have hm := propGet_mem _ _ _ h
      obtain ⟨r1, r2⟩ := hr props List.mem_cons_self
      refine ⟨r1 _ hm, ?_⟩
      intro h0 es he
      exact h0 ((r2 _ hm).2 ⟨es, he⟩)
  · cases h

/-- A value that is read, is not a dictionary and not too late a time, has a text. -/
theorem showable_of (v : PropValue) (hr : ReadRange v) (hd : ∀ es, v ≠ .dictionary es)
    (ht : ∀ n, v = .filetime n → n + timeSlack < fileTimeEnd) : Showable v := by
  cases v with
  | i4 n => trivial
  | lpwstr s => exact hr
  | filetime n => exact ht n rfl
  | dictionary es => exact absurd rfl (hd es)

/-! ### The text of a stream -/

theorem shown_of_read (v : PropValue) (hr : ReadRange v) (t : PyStr) (h : propStr v = .ok t) : ShownAs v t :=
  propStr_inv v (fun n e => by subst e; exact hr) t h

theorem forall₂_flatMap {α β γ : Type} (f : α → List β) (g : γ → β) (P : α → List γ → Prop) : ∀ (as : List α),
    (∀ a ∈ as, ∃ ls, f a = ls.map g ∧ P a ls) →
    ∃ shown : List (List γ), List.Forall₂ P as shown ∧ as.flatMap f = shown.flatten.map g := by
  intro as
  induction as with
  | nil => intro _; exact ⟨[], .nil, rfl⟩
  | cons a as ih =>
    intro h
    obtain ⟨ls, h1, h2⟩ := h a List.mem_cons_self
    obtain ⟨shown, h3, h4⟩ := ih fun b hb => h b (List.mem_cons_of_mem _ hb)
    exact ⟨ls :: shown, .cons h2 h3, by rw [List.flatMap_cons, h1, h4, List.flatten_cons, List.map_append]⟩

theorem head_eq (off : Nat) (p : PropObj) :
    lit "- " ++ hex8 (off + p.offset) ++ lit ": " ++ (p.label.map lit).getD [] ++ lit "(=0x" ++ hex8 p.id ++ lit "):" =
      propertyHead off p := by
  unfold propertyHead hex8
  rw [hexLower_eq, hexLower_eq]

theorem propertyLines_shown (off : Nat) (p : PropObj) (hp : p.id = 0 ↔ ∃ es, p.value = .dictionary es) (hr : ReadRange p.value)
    (hok : ∀ l ∈ propertyLines off p, ∃ t, l = .ok t) :
    ∃ ls, propertyLines off p = ls.map .ok ∧ PropertyShown off p ls := by
  unfold propertyLines at hok ⊢
  simp only [head_eq] at hok ⊢
  by_cases h0 : p.id = 0
  · obtain ⟨es, he⟩ := hp.1 h0
    rw [if_pos h0, he]
    refine ⟨propertyHead off p :: es.map fun e => lit "            - " ++ natStr e.1 ++ lit ": " ++ e.2, ?_, ?_⟩
    · simp only [List.map_cons, List.map_map]; rfl
    · unfold PropertyShown
      rw [he]
      simp only [decimal_nat]
  · rw [if_neg h0] at hok ⊢
    obtain ⟨t, ht⟩ := hok _ List.mem_cons_self
    simp only [bind, Except.bind, pure, Except.pure] at ht ⊢
    split at ht
    · cases ht
    rename_i x hx
    have hs := shown_of_read p.value hr x hx
    refine ⟨[propertyHead off p ++ lit " " ++ x], rfl, ?_⟩
    unfold PropertyShown
    cases hv : p.value with
    | dictionary es => exact absurd (hp.2 ⟨es, hv⟩) h0
    | i4 n => rw [hv] at hs; exact ⟨x, hs, rfl⟩
    | lpwstr n => rw [hv] at hs; exact ⟨x, hs, rfl⟩
    | filetime n => rw [hv] at hs; exact ⟨x, hs, rfl⟩

theorem propertySetLines_shown (s : PropSetObj) (hp : ∀ p ∈ s.properties, (p.id = 0 ↔ ∃ es, p.value = .dictionary es) ∧ ReadRange p.value)
    (hok : ∀ l ∈ propertySetLines s, ∃ t, l = .ok t) :
    ∃ ls, propertySetLines s = ls.map .ok ∧ SetShown s ls := by
  have ho := sortByOffset_order s.properties
  obtain ⟨shown, h1, h2⟩ := forall₂_flatMap (propertyLines s.offset) (Except.ok (ε := PyErr)) (PropertyShown s.offset)
    (sortByOffset s.properties) (by
      intro p hpm
      obtain ⟨a, b⟩ := hp p (ho.1.mem_iff.1 hpm)
      refine propertyLines_shown s.offset p a b ?_
      intro l hl
      apply hok l
      unfold propertySetLines
      exact List.mem_append_right _ (List.mem_flatMap.2 ⟨p, hpm, hl⟩))
  have e : lit "- " ++ hex8 s.offset ++ lit ": " ++ (lit "Property Set " ++ uuidStr s.fmtid) =
      lit "- " ++ lowerHex 8 s.offset ++ lit ": Property Set " ++ guidText s.fmtid := by
    unfold hex8
    rw [hexLower_eq, uuidStr_eq, show lit ": Property Set " = lit ": " ++ lit "Property Set " from by decide +kernel]
    simp only [List.append_assoc]
  have hl : (lit "Property Set " ++ uuidStr s.fmtid).length = 13 + (guidText s.fmtid).length := by
    rw [List.length_append, uuidStr_eq, show (lit "Property Set ").length = 13 from by decide +kernel]
  refine ⟨_, ?_, sortByOffset s.properties, shown, ho, h1, rfl⟩
  unfold propertySetLines
  simp only [h2, e, hl, List.map_cons, List.cons_append, List.nil_append]

theorem propertyStreamLines_shown (s : PropStreamObj)
    (hp : ∀ t ∈ s.sets, ∀ p ∈ t.properties, (p.id = 0 ↔ ∃ es, p.value = .dictionary es) ∧ ReadRange p.value)
    (hok : ∀ l ∈ propertyStreamLines s, ∃ t, l = .ok t) :
    ∃ ls, propertyStreamLines s = ls.map .ok ∧ StreamShown s ls := by
  obtain ⟨shown, h1, h2⟩ := forall₂_flatMap propertySetLines (Except.ok (ε := PyErr)) SetShown s.sets (by
    intro t ht
    refine propertySetLines_shown t (hp t ht) ?_
    intro l hl
    apply hok l
    unfold propertyStreamLines
    exact List.mem_append_right _ (List.mem_flatMap.2 ⟨t, ht, hl⟩))
  refine ⟨_, ?_, shown, h1, rfl⟩
  unfold propertyStreamLines
  simp only [h2, hex8, hexLower_eq, uuidStr_eq, decimal_nat, List.map_append, List.map_cons, List.map_nil]

theorem printedLines (ls : List (Except PyErr PyStr)) (b : Bytes)
    (h : printAll (fun l => do let t ← l; let b ← utf8Encode t; return b ++ [10]) ls = (b, none)) :
    ∃ ts, ls = ts.map .ok ∧ utf8Encode (unixLines ts) = .ok b := by
  rcases printAll_inv _ ls with ⟨bs, h1, h2⟩ | ⟨pre, a, post, e, _, _, h2⟩
  · rw [h2] at h
    cases h
    clear h2
    induction h1 with
    | nil => exact ⟨[], rfl, rfl⟩
    | @cons a b as bs h1 h2 ih =>
      obtain ⟨ts, i1, i2⟩ := ih
      simp only [bind, Except.bind, pure, Except.pure] at h1
      split at h1
      · cases h1
      rename_i t
      split at h1
      · cases h1
      rename_i x hx
      cases h1
      refine ⟨t :: ts, by rw [List.map_cons, ← i1], ?_⟩
      have : unixLines (t :: ts) = (t ++ [10]) ++ unixLines ts := rfl
      rw [this, List.flatten_cons]
      exact utf8Encode_append_eq _ _ _ _ (utf8Encode_append_eq _ _ _ _ hx rfl) i2
  · rw [h] at h2; cases h2

/-! ### Preview text -/

theorem utf16leStream_of (d : Bytes) (s : PyStr) (h : utf16leDecode d = .ok s) : utf16leStream d = .ok s := by
  fun_induction utf16leDecode d generalizing s with
  | case1 => cases h; rw [utf16leStream]
  | case2 => cases h
  | case3 a b rest u hu ih =>
    rw [utf16leStream.eq_def]
    simp only [bind, Except.bind, pure, Except.pure] at h ⊢
    rw [if_pos hu]
    split at h
    · cases h
    · rename_i cs hcs
      rw [ih _ hcs]
      exact h
  | case4 a b u hu1 hu2 c d rest l hl ih =>
    rw [utf16leStream]
    simp only [bind, Except.bind, pure, Except.pure] at h ⊢
    rw [if_neg hu1, if_pos hu2, if_pos hl]
    split at h
    · cases h
    · rename_i cs hcs
      rw [ih _ hcs]
      exact h
  | case5 => cases h
  | case6 => cases h
  | case7 => cases h

theorem utf16leStream_inv (d : Bytes) (s : PyStr) (h : utf16leStream d = .ok s) :
    ∃ p r, d = p ++ r ∧ r.length ≤ 3 ∧ utf16leDecode p = .ok s := by
  fun_induction utf16leStream d generalizing s with
  | case1 => cases h; exact ⟨[], [], rfl, by simp, by rw [utf16leDecode]⟩
  | case2 x => cases h; exact ⟨[], [x], rfl, by simp, by rw [utf16leDecode]⟩
  | case3 a b rest u hu ih =>
    simp only [bind, Except.bind, pure, Except.pure] at h
    split at h
    · cases h
    · rename_i cs hcs
      obtain ⟨p, r, rfl, hr, hp⟩ := ih _ hcs
      refine ⟨a :: b :: p, r, rfl, hr, ?_⟩
      rw [utf16leDecode.eq_def]
      simp only [bind, Except.bind, pure, Except.pure]
      rw [if_pos hu, hp]
      exact h
  | case4 a b u hu1 hu2 c d rest l hl ih =>
    simp only [bind, Except.bind, pure, Except.pure] at h
    split at h
    · cases h
    · rename_i cs hcs
      obtain ⟨p, r, rfl, hr, hp⟩ := ih _ hcs
      refine ⟨a :: b :: c :: d :: p, r, rfl, hr, ?_⟩
      rw [utf16leDecode]
      simp only [bind, Except.bind, pure, Except.pure]
      rw [if_neg hu1, if_pos hu2, if_pos hl, hp]
      exact h
  | case5 => cases h
  | case6 a b rest u hu1 hu2 hne =>
    cases h
    refine ⟨[], a :: b :: rest, rfl, ?_, by rw [utf16leDecode]⟩
    match rest, hne with
    | [], _ => simp
    | [_], _ => simp
    | c :: d :: rest', hne => exact absurd rfl (hne c d rest')
  | case7 => cases h

end Hwp
