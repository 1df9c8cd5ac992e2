/- Proofs about UTF-8. -/
import Verif.Model.Utf8
import Verif.Spec.Utf8
import Verif.Proofs.XmlDoc
set_option autoImplicit false
set_option linter.unusedSimpArgs false
set_option linter.unusedVariables false
namespace Hwp
open Spec

theorem ofNat_val (n : Nat) (h : n < 256) : (UInt8.ofNat n).toNat = n := by
  simp; omega

theorem utf8Char_ok (c : Nat) : (∃ b, utf8Char c = .ok b) ↔ Scalar c := by
  unfold utf8Char Scalar
  constructor
  · rintro ⟨b, h⟩
    split at h
    · omega
    split at h
    · omega
    split at h
    · cases h
    split at h
    · omega
    split at h
    · omega
    · cases h
  · intro h
    split
    · exact ⟨_, rfl⟩
    split
    · exact ⟨_, rfl⟩
    split
    · omega
    split
    · exact ⟨_, rfl⟩
    split
    · exact ⟨_, rfl⟩
    · omega

theorem utf8Encode_ok (s : PyStr) : (∃ b, utf8Encode s = .ok b) ↔ ∀ c ∈ s, Scalar c := by
  induction s with
  | nil => simp [utf8Encode]
  | cons c s ih =>
    simp only [utf8Encode, bind, Except.bind, pure, Except.pure, List.forall_mem_cons]
    rw [← ih, ← utf8Char_ok]
    constructor
    · rintro ⟨b, h⟩
      split at h
      · cases h
      · rename_i b1 h1
        split at h
        · cases h
        · rename_i b2 h2
          exact ⟨⟨b1, h1⟩, b2, h2⟩
    · rintro ⟨⟨b1, h1⟩, b2, h2⟩
      exact ⟨b1 ++ b2, by rw [h1, h2]⟩

theorem utf8Encode_error (s : PyStr) (e : PyErr) (h : utf8Encode s = .error e) : e = .unicodeEncodeError := by
  induction s with
  | nil => cases h
  | cons c s ih =>
    simp only [utf8Encode, bind, Except.bind, pure, Except.pure] at h
    split at h
    · rename_i e1 h1
      cases h
      unfold utf8Char at h1
      split at h1
      · cases h1
      split at h1
      · cases h1
      split at h1
      · cases h1; rfl
      split at h1
      · cases h1
      split at h1
      · cases h1
      · cases h1; rfl
    · split at h
      · rename_i e1 h1
        cases h
        exact ih h1
      · cases h

/-- Decoding the bytes of one character. -/
theorem decode_char (c : Nat) (b rest : Bytes) (h : utf8Char c = .ok b) :
    decodeUtf8 (b ++ rest) = (decodeUtf8 rest).map (c :: ·) := by
  unfold utf8Char at h
  split at h
  · rename_i h1
    cases h
    simp only [List.cons_append, List.nil_append]
    rw [decodeUtf8.eq_def]
    dsimp only
    rw [ofNat_val c (by omega), if_pos (by omega)]
  split at h
  · cases h
    simp only [List.cons_append, List.nil_append]
    rw [decodeUtf8.eq_def]
    dsimp only
    rw [ofNat_val (0xC0 + c / 64) (by omega), if_neg (by omega), if_pos (by omega)]
    unfold utf8Tail tailBits
    rw [ofNat_val (0x80 + c % 64) (by omega)]
    rw [if_pos (by simp; omega), show (0xC0 + c / 64) % 32 * 64 + (0x80 + c % 64) % 64 = c by omega]
  split at h
  · cases h
  split at h
  · cases h
    simp only [List.cons_append, List.nil_append]
    rw [decodeUtf8.eq_def]
    dsimp only
    rw [ofNat_val (0xE0 + c / 4096) (by omega), if_neg (by omega), if_neg (by omega), if_pos (by omega)]
    unfold second3 utf8Tail tailBits
    rw [ofNat_val (0xE0 + c / 4096) (by omega), ofNat_val (0x80 + c % 64) (by omega), ofNat_val (0x80 + c / 64 % 64) (by omega)]
    rw [if_pos, show (0xE0 + c / 4096) % 16 * 4096 + (0x80 + c / 64 % 64) % 64 * 64 + (0x80 + c % 64) % 64 = c by omega]
    simp only [Bool.and_eq_true, decide_eq_true_eq]
    refine ⟨⟨by omega, ?_⟩, by omega⟩
    split
    · simp; omega
    split
    · simp; omega
    · rfl
  split at h
  · cases h
    simp only [List.cons_append, List.nil_append]
    rw [decodeUtf8.eq_def]
    dsimp only
    rw [ofNat_val (0xF0 + c / 262144) (by omega), if_neg (by omega), if_neg (by omega), if_neg (by omega), if_pos (by omega)]
    unfold second4 utf8Tail tailBits
    rw [ofNat_val (0xF0 + c / 262144) (by omega), ofNat_val (0x80 + c % 64) (by omega), ofNat_val (0x80 + c / 64 % 64) (by omega),
      ofNat_val (0x80 + c / 4096 % 64) (by omega)]
    rw [if_pos, show (0xF0 + c / 262144) % 8 * 262144 + (0x80 + c / 4096 % 64) % 64 * 4096 + (0x80 + c / 64 % 64) % 64 * 64 +
      (0x80 + c % 64) % 64 = c by omega]
    simp only [Bool.and_eq_true, decide_eq_true_eq]
    refine ⟨⟨⟨by omega, ?_⟩, by omega⟩, by omega⟩
    split
    · simp; omega
    split
    · simp; omega
    · rfl
  · cases h

theorem decode_encode_append (s : PyStr) (b rest : Bytes) (h : utf8Encode s = .ok b) :
    decodeUtf8 (b ++ rest) = (decodeUtf8 rest).map (s ++ ·) := by
  induction s generalizing b with
  | nil => cases h; simp
  | cons c s ih =>
    simp only [utf8Encode, bind, Except.bind, pure, Except.pure] at h
    split at h
    · cases h
    · rename_i b1 h1
      split at h
      · cases h
      · rename_i b2 h2
        cases h
        rw [List.append_assoc, decode_char c b1 _ h1, ih b2 h2, Option.map_map]
        rfl

theorem decode_encode (s : PyStr) (b : Bytes) (h : utf8Encode s = .ok b) : decodeUtf8 b = some s := by
  have := decode_encode_append s b [] h
  simpa [decodeUtf8] using this

theorem encode_decode (b : Bytes) : ∀ s, decodeUtf8 b = some s → utf8Encode s = .ok b := by
  fun_induction decodeUtf8 b with
  | case1 => intro s h; cases h; rfl
  | case2 a r ha ih =>
    intro s h
    obtain ⟨t, ht, rfl⟩ := Option.map_eq_some_iff.1 h
    simp only [utf8Encode, bind, Except.bind, pure, Except.pure, ih t ht]
    unfold utf8Char
    rw [if_pos (by omega)]
    simp
  | case3 a ha hb b r ht ih =>
    intro s h
    obtain ⟨t, h1, rfl⟩ := Option.map_eq_some_iff.1 h
    simp only [utf8Encode, bind, Except.bind, pure, Except.pure, ih t h1]
    simp only [utf8Tail, Bool.and_eq_true, decide_eq_true_eq] at ht
    unfold utf8Char tailBits
    rw [if_neg (by omega), if_pos (by omega)]
    simp only [List.cons_append, List.nil_append]
    congr 2
    · apply UInt8.toNat_inj.1; rw [ofNat_val _ (by omega)]; omega
    · congr 1; apply UInt8.toNat_inj.1; rw [ofNat_val _ (by omega)]; omega
  | case4 => intro s h; cases h
  | case5 => intro s h; cases h
  | case6 a ha hb hc b c r ht ih =>
    intro s h
    obtain ⟨t, h1, rfl⟩ := Option.map_eq_some_iff.1 h
    simp only [utf8Encode, bind, Except.bind, pure, Except.pure, ih t h1]
    simp only [second3, utf8Tail, Bool.and_eq_true, decide_eq_true_eq] at ht
    obtain ⟨⟨h2, h3⟩, h4⟩ := ht
    have h5 : (a.toNat = 0xE0 → 0xA0 ≤ b.toNat) ∧ (a.toNat = 0xED → b.toNat ≤ 0x9F) := by
      split at h3
      · simp at h3; omega
      split at h3
      · simp at h3; omega
      · omega
    unfold utf8Char tailBits
    rw [if_neg (by omega), if_neg (by omega), if_neg (by omega), if_pos (by omega)]
    simp only [List.cons_append, List.nil_append]
    congr 2
    · apply UInt8.toNat_inj.1; rw [ofNat_val _ (by omega)]; omega
    · congr 1
      · apply UInt8.toNat_inj.1; rw [ofNat_val _ (by omega)]; omega
      · congr 1; apply UInt8.toNat_inj.1; rw [ofNat_val _ (by omega)]; omega
  | case7 => intro s h; cases h
  | case8 => intro s h; cases h
  | case9 a ha hb hc hd b c d r ht ih =>
    intro s h
    obtain ⟨t, h1, rfl⟩ := Option.map_eq_some_iff.1 h
    simp only [utf8Encode, bind, Except.bind, pure, Except.pure, ih t h1]
    simp only [second4, utf8Tail, Bool.and_eq_true, decide_eq_true_eq] at ht
    obtain ⟨⟨⟨h2, h3⟩, h4⟩, h6⟩ := ht
    have h5 : (a.toNat = 0xF0 → 0x90 ≤ b.toNat) ∧ (a.toNat = 0xF4 → b.toNat ≤ 0x8F) := by
      split at h3
      · simp at h3; omega
      split at h3
      · simp at h3; omega
      · omega
    unfold utf8Char tailBits
    rw [if_neg (by omega), if_neg (by omega), if_neg (by omega), if_neg (by omega), if_pos (by omega)]
    simp only [List.cons_append, List.nil_append]
    congr 2
    · apply UInt8.toNat_inj.1; rw [ofNat_val _ (by omega)]; omega
    · congr 1
      · apply UInt8.toNat_inj.1; rw [ofNat_val _ (by omega)]; omega
      · congr 1
        · apply UInt8.toNat_inj.1; rw [ofNat_val _ (by omega)]; omega
        · congr 1; apply UInt8.toNat_inj.1; rw [ofNat_val _ (by omega)]; omega
  | case10 => intro s h; cases h
  | case11 => intro s h; cases h
  | case12 => intro s h; cases h

theorem utf8_iff (s : PyStr) (b : Bytes) : utf8Encode s = .ok b ↔ decodeUtf8 b = some s :=
  ⟨decode_encode s b, encode_decode b s⟩

/-! ### Chunks -/

/-- If the text can be encoded, so can its chunks, and their bytes are those of the text. -/
theorem encodeChunks_ok (cs : List PyStr) (h : ∀ c ∈ cs.flatten, Scalar c) :
    (encodeChunks cs).err = none ∧ decodeUtf8 (encodeChunks cs).out.flatten = some cs.flatten := by
  induction cs with
  | nil => exact ⟨rfl, rfl⟩
  | cons c cs ih =>
    simp only [List.flatten_cons, List.mem_append] at h
    obtain ⟨b, hb⟩ := (utf8Encode_ok c).2 (fun x hx => h x (Or.inl hx))
    obtain ⟨h1, h2⟩ := ih (fun x hx => h x (Or.inr hx))
    unfold encodeChunks
    rw [hb]
    refine ⟨h1, ?_⟩
    simp only [Gen.cons, List.flatten_cons]
    rw [decode_encode_append c b _ hb, h2]
    rfl

/-- Otherwise the bytes are those of a part of the text before a character that cannot be encoded. -/
theorem encodeChunks_stops (cs : List PyStr) :
    ((encodeChunks cs).err = none ↔ ∀ c ∈ cs.flatten, Scalar c) ∧
    ((encodeChunks cs).err ≠ none → (encodeChunks cs).err = some .unicodeEncodeError) ∧
    ∃ t u, cs.flatten = t ++ u ∧ decodeUtf8 (encodeChunks cs).out.flatten = some t := by
  induction cs with
  | nil => exact ⟨by simp [encodeChunks, Gen.done], by simp [encodeChunks, Gen.done], [], [], rfl, rfl⟩
  | cons c cs ih =>
    unfold encodeChunks
    split
    · rename_i b hb
      obtain ⟨h1, h2, t, u, h3, h4⟩ := ih
      refine ⟨?_, h2, c ++ t, u, by simp [h3], ?_⟩
      · simp only [Gen.cons, h1, List.flatten_cons, List.forall_mem_append]
        have := (utf8Encode_ok c).1 ⟨b, hb⟩
        exact ⟨fun h => ⟨this, h⟩, fun h => h.2⟩
      · simp only [Gen.cons, List.flatten_cons]
        rw [decode_encode_append c b _ hb, h4]
        rfl
    · rename_i e he
      refine ⟨?_, fun _ => by simp [Gen.raise, utf8Encode_error c e he], [], _, rfl, rfl⟩
      simp only [Gen.raise, List.flatten_cons, List.forall_mem_append]
      constructor
      · intro h; cases h
      · intro h
        obtain ⟨b, hb⟩ := (utf8Encode_ok c).2 h.1
        rw [he] at hb
        cases hb

/-! ### The characters of the text -/

theorem scalar_ascii {c : Nat} (h : c < 0x80) : Scalar c := Or.inl (by omega)

theorem scalar_noNul (v : PyStr) : (∀ c ∈ noNul v, Scalar c) ↔ ∀ c ∈ v, Scalar c := by
  simp only [noNul, List.mem_filter, decide_eq_true_eq]
  constructor
  · intro h c hc
    by_cases h0 : c = 0
    · subst h0; exact scalar_ascii (by omega)
    · exact h c ⟨hc, h0⟩
  · exact fun h c hc => h c hc.1

theorem scalar_flatMap (v : PyStr) (f : Nat → PyStr) (hf : ∀ c, f c = [c] ∨ (c < 0x80 ∧ ∀ x ∈ f c, x < 0x80)) :
    (∀ c ∈ v.flatMap f, Scalar c) ↔ ∀ c ∈ v, Scalar c := by
  simp only [List.mem_flatMap, forall_exists_index, and_imp]
  constructor
  · intro h c hc
    rcases hf c with h1 | h1
    · exact h c c hc (by simp [h1])
    · exact scalar_ascii h1.1
  · intro h x c hc hx
    rcases hf c with h1 | h1
    · rw [h1] at hx
      simp at hx
      subst hx
      exact h _ hc
    · exact scalar_ascii (h1.2 x hx)

theorem escT_cases (c : Nat) : escT c = [c] ∨ (c < 0x80 ∧ ∀ x ∈ escT c, x < 0x80) := by
  unfold escT
  split
  · right; subst c; decide
  split
  · right; subst c; decide
  split
  · right; subst c; decide
  · left; rfl

theorem escA_cases (q : Bool) (c : Nat) : escA q c = [c] ∨ (c < 0x80 ∧ ∀ x ∈ escA q c, x < 0x80) := by
  unfold escA
  split
  · right; subst c; decide
  split
  · right; subst c; decide
  split
  · right; subst c; decide
  split
  · right; subst c; decide
  split
  · right; subst c; decide
  split
  · right; subst c; decide
  split
  · rename_i h; right; rw [h.1]; decide
  · left; rfl

theorem scalar_attrs (as : List (PyStr × PyStr)) :
    (∀ c ∈ attrsText as, Scalar c) ↔ ∀ a ∈ as, (∀ c ∈ a.1, Scalar c) ∧ ∀ c ∈ a.2, Scalar c := by
  induction as with
  | nil => simp [attrsText]
  | cons a as ih =>
    have hq : Scalar (attrQuote a.2).1 := by
      rcases attrQuote_quote a.2 with h | h <;> rw [h] <;> exact scalar_ascii (by omega)
    have hv : (∀ c ∈ (noNul a.2).flatMap (escA (attrQuote a.2).2), Scalar c) ↔ ∀ c ∈ a.2, Scalar c := by
      rw [scalar_flatMap _ _ (escA_cases _), scalar_noNul]
    have h1 : Scalar 0x20 := scalar_ascii (by omega)
    have h2 : Scalar 0x3D := scalar_ascii (by omega)
    rw [attrsText_cons]
    simp only [List.forall_mem_append, List.forall_mem_cons, ih, hv, hq, h1, h2]
    simp [and_assoc]

theorem scalar_event (e : XEv) : (∀ c ∈ (evChunks e).flatten, Scalar c) ↔ EncodableEv e := by
  have h1 : Scalar 0x3C := scalar_ascii (by omega)
  have h2 : Scalar 0x3E := scalar_ascii (by omega)
  have h3 : Scalar 0x2F := scalar_ascii (by omega)
  cases e with
  | start n as =>
    rw [chunks_start]
    simp only [List.forall_mem_append, List.forall_mem_cons, scalar_attrs, h1, h2, EncodableEv]
    simp
  | stop n =>
    rw [chunks_stop]
    simp only [List.forall_mem_append, List.forall_mem_cons, h1, h2, h3, EncodableEv]
    simp
  | text t =>
    rw [chunks_text, scalar_flatMap _ _ escT_cases, scalar_noNul]
    rfl

theorem scalar_text (evs : List XEv) : (∀ c ∈ xmlText evs, Scalar c) ↔ ∀ e ∈ evs, EncodableEv e := by
  induction evs with
  | nil => simp [xmlText, xmlTextChunks]
  | cons e evs ih => rw [xmlText_cons, List.forall_mem_append, scalar_event, ih, List.forall_mem_cons]

theorem xmlChar_scalar {c : Nat} (h : xmlChar c = true) : Scalar c := by
  simp only [xmlChar, Bool.or_eq_true, Bool.and_eq_true, decide_eq_true_eq, beq_iff_eq] at h
  unfold Scalar
  omega

theorem declaration_scalar : ∀ c ∈ utf8Declaration, Scalar c := by decide +kernel

theorem bytechunks_text (declaration : Bool) (evs : List XEv) :
    ((if declaration then [lit "<?xml version=\"1.0\" encoding=\"utf-8\"?>\n"] else []) ++ xmlTextChunks evs).flatten =
      (if declaration then utf8Declaration else []) ++ xmlText evs := by
  cases declaration
  · simp [xmlText]
  · simp only [if_true, List.flatten_append, xmlText]
    congr 1

theorem scalar_all (declaration : Bool) (evs : List XEv) :
    (∀ c ∈ (if declaration then utf8Declaration else []) ++ xmlText evs, Scalar c) ↔ ∀ e ∈ evs, EncodableEv e := by
  rw [List.forall_mem_append, scalar_text]
  refine ⟨fun h => h.2, fun h => ⟨?_, h⟩⟩
  split
  · exact declaration_scalar
  · simp

theorem dump_spec (declaration : Bool) (g : Gen XEv) :
    ((xmlDump declaration g).2 = none ↔ g.err = none ∧ ∀ e ∈ g.out, EncodableEv e) ∧
    ((∀ e ∈ g.out, EncodableEv e) → (xmlDump declaration g).2 = g.err ∧
      decodeUtf8 (xmlDump declaration g).1 = some ((if declaration then utf8Declaration else []) ++ xmlText g.out)) ∧
    ((¬∀ e ∈ g.out, EncodableEv e) → (xmlDump declaration g).2 = some .unicodeEncodeError) ∧
    ∃ t u, (if declaration then utf8Declaration else []) ++ xmlText g.out = t ++ u ∧
      decodeUtf8 (xmlDump declaration g).1 = some t := by
  unfold xmlDump bytechunks
  dsimp only
  generalize hc : ((if declaration then [lit "<?xml version=\"1.0\" encoding=\"utf-8\"?>\n"] else []) ++ xmlTextChunks g.out) = cs
  have ht := bytechunks_text declaration g.out
  rw [hc] at ht
  obtain ⟨h1, h2, h3⟩ := encodeChunks_stops cs
  rw [ht, scalar_all] at h1
  rw [ht] at h3
  refine ⟨?_, ?_, ?_, h3⟩
  · rw [← h1]
    cases (encodeChunks cs).err <;> simp
  · intro h
    have := encodeChunks_ok cs (by rw [ht, scalar_all]; exact h)
    rw [this.1, this.2, ht]
    exact ⟨rfl, rfl⟩
  · intro h
    have hn : (encodeChunks cs).err ≠ none := fun hn => h (h1.1 hn)
    rw [h2 hn]
    rfl

/-- A document does not start like a declaration. -/
theorem no_declaration (evs : List XEv) (h : ∀ e ∈ evs, EvOk e) (hr : OneRoot evs) :
    utf8Declaration.isPrefixOf (xmlText evs) = false := by
  cases evs with
  | nil => simp [OneRoot] at hr
  | cons e evs =>
    cases e with
    | stop n => simp [OneRoot] at hr
    | text n => simp [OneRoot] at hr
    | start name as =>
      have hn := (h _ (List.mem_cons_self)).1
      cases name with
      | nil => simp [ValidName] at hn
      | cons c cs =>
        rw [xmlText_cons, chunks_start]
        have hd : utf8Declaration = 0x3C :: 0x3F :: utf8Declaration.drop 2 := by decide +kernel
        rw [hd]
        simp only [List.cons_append, List.nil_append, List.isPrefixOf, beq_self_eq_true, Bool.true_and, Bool.and_eq_false_iff]
        left
        simp only [beq_eq_false_iff_ne, ne_eq]
        rintro rfl
        simp only [ValidName] at hn
        exact absurd hn.1 (by decide)

theorem parseFile_text (declaration : Bool) (evs : List XEv) (h : ∀ e ∈ evs, EvOk e) (hr : OneRoot evs) (bs : Bytes)
    (hb : decodeUtf8 bs = some ((if declaration then utf8Declaration else []) ++ xmlText evs)) :
    parseFile bs = some (joined evs) := by
  unfold parseFile
  rw [hb]
  dsimp only
  cases declaration with
  | false =>
    simp only [Bool.false_eq_true, if_false, List.nil_append, no_declaration evs h hr]
    exact parseDocument_text evs h hr
  | true =>
    simp only [if_true]
    rw [if_pos (List.isPrefixOf_iff_prefix.2 (List.prefix_append _ _)), List.drop_left]
    exact parseDocument_text evs h hr

theorem evOk_encodable (e : XEv) (h : EvOk e) : EncodableEv e := by
  rw [← scalar_event]
  exact fun c hc => xmlChar_scalar (chunks_good e h c hc).1

end Hwp
