/- Proofs about the JSON form of models. -/
import Verif.Props.Json
import Verif.Proofs.Utf16
import Verif.Proofs.DeclBytes
import Verif.Proofs.DeclContent
import Verif.Model.ModelJson
import Verif.Spec.ModelJson
set_option autoImplicit false
set_option linter.unusedSimpArgs false
set_option linter.unusedVariables false
namespace Hwp
open Spec Props

theorem utf16_strUnits (s : PyStr) : utf16 s = strUnits s := by
  unfold utf16 strUnits units
  induction s with
  | nil => rfl
  | cons c s ih => rw [List.flatMap_cons, List.map_cons, List.flatten_cons, ih]

theorem utf16_inj {s t : PyStr} (hs : ∀ c ∈ s, Scalar c) (ht : ∀ c ∈ t, Scalar c) (h : utf16 s = utf16 t) : s = t := by
  rw [utf16_strUnits, utf16_strUnits] at h
  have e : encodeUtf16le s = encodeUtf16le t := by unfold encodeUtf16le; rw [h]
  have h1 := utf16leDecode_encode s hs
  rw [e, utf16leDecode_encode t ht] at h1
  injection h1 with h1; exact h1.symm

theorem char_scalar (c : Char) : Scalar c.toNat := by
  have := c.valid
  unfold Scalar
  rcases this with h | ⟨h1, h2⟩
  · left; exact h
  · right
    constructor
    · have : 0xDFFF < c.val.toNat := h1
      show 0xE000 ≤ c.val.toNat; omega
    · exact h2

theorem lit_scalar (s : String) : ∀ c ∈ lit s, Scalar c := by
  intro c hc
  unfold lit at hc
  rw [List.mem_map] at hc
  obtain ⟨a, -, rfl⟩ := hc
  exact char_scalar a

theorem scalar_lt {c : Nat} (h : Scalar c) : c < 0x110000 := by unfold Scalar at h; omega

theorem key_ok (s : String) : ((lit s).all fun c => decide (c < 0x110000)) = true := by
  rw [List.all_eq_true]; intro c hc; simpa using scalar_lt (lit_scalar s c hc)

theorem key_inj {a b : String} (h : utf16 (lit a) = utf16 (lit b)) : a = b := by
  have := utf16_inj (lit_scalar a) (lit_scalar b) h
  unfold lit at this
  have := List.map_injective_iff.2 (fun c d hcd => Char.toNat_inj.1 hcd) this
  exact String.ext this

/-! ### Sorting -/

theorem insertKey_perm {α} (k : PyStr) (v : α) (fs : List (PyStr × α)) : (insertKey k v fs).Perm ((k, v) :: fs) := by
  induction fs with
  | nil => exact .refl _
  | cons x fs ih =>
    obtain ⟨k', v'⟩ := x
    rw [insertKey]
    split
    · exact (ih.cons _).trans (.swap _ _ _)
    · exact .refl _

theorem sortKeys_perm {α} (fs : List (PyStr × α)) : (sortKeys fs).Perm fs := by
  induction fs with
  | nil => exact .refl _
  | cons x fs ih =>
    obtain ⟨k, v⟩ := x
    rw [sortKeys]
    exact (insertKey_perm _ _ _).trans (ih.cons _)

theorem jvf_cons {k : PyStr} {x : Json} {fs : List (PyStr × Json)} {ws : List (List Nat × JValue)}
    (h : jvf ((k, x) :: fs) = some ws) :
    ∃ w us, jv x = some w ∧ jvf fs = some us ∧ (k.all fun c => decide (c < 0x110000)) = true ∧ ws = (utf16 k, w) :: us := by
  rw [jvf] at h
  cases hx : jv x <;> cases hxs : jvf fs <;> simp only [hx, hxs] at h <;> try cases h
  split at h
  · rename_i hk
    injection h with h
    exact ⟨_, _, rfl, rfl, hk, h.symm⟩
  · cases h

theorem jvf_cons_some {k : PyStr} {x : Json} {fs : List (PyStr × Json)} {w : JValue} {us : List (List Nat × JValue)}
    (h1 : jv x = some w) (h2 : jvf fs = some us) (h3 : (k.all fun c => decide (c < 0x110000)) = true) :
    jvf ((k, x) :: fs) = some ((utf16 k, w) :: us) := by
  rw [jvf, h1, h2]
  show (if _ then _ else _) = _
  rw [if_pos h3]

theorem jvf_perm {fs gs : List (PyStr × Json)} (hp : fs.Perm gs) : ∀ ws, jvf fs = some ws →
    ∃ us, jvf gs = some us ∧ us.Perm ws := by
  induction hp with
  | nil => intro ws h; exact ⟨ws, h, .refl _⟩
  | cons x _ ih =>
    intro ws h
    obtain ⟨k, x⟩ := x
    obtain ⟨w, us, h1, h2, h3, rfl⟩ := jvf_cons h
    obtain ⟨vs, h4, h5⟩ := ih us h2
    exact ⟨_, jvf_cons_some h1 h4 h3, h5.cons _⟩
  | swap x y l =>
    intro ws h
    obtain ⟨k, x⟩ := x
    obtain ⟨k', y⟩ := y
    obtain ⟨w, us, h1, h2, h3, rfl⟩ := jvf_cons h
    obtain ⟨w', us', h1', h2', h3', rfl⟩ := jvf_cons h2
    exact ⟨_, jvf_cons_some h1' (jvf_cons_some h1 h2' h3) h3', .swap _ _ _⟩
  | trans _ _ ih1 ih2 =>
    intro ws h
    obtain ⟨us, h1, h2⟩ := ih1 ws h
    obtain ⟨vs, h3, h4⟩ := ih2 us h1
    exact ⟨vs, h3, h4.trans h2⟩

/-! ### Values that can be shown -/

/-- Valid strings, finite numbers, no classes. -/
def LeafOk : PVal → Prop
  | .str s => ∀ c ∈ s, Scalar c
  | .double b => b.length = 8 ∧ Finite b
  | .chunks cs => ∀ c ∈ cs, match c.val with
    | .text s => ∀ x ∈ s, Scalar x
    | .ctrl _ => True
  | .cls _ => False
  | .inst _ => False
  | _ => True

mutual
/-- The names in every dict are distinct, and every leaf satisfies `P`. -/
def GoodV (P : PVal → Prop) : Value PVal → Prop
  | .leaf p => P p
  | .list xs => GoodVs P xs
  | .tuple xs => GoodVs P xs
  | .struct fs => (fs.map Prod.fst).Nodup ∧ GoodFs P fs
def GoodVs (P : PVal → Prop) : List (Value PVal) → Prop
  | [] => True
  | x :: xs => GoodV P x ∧ GoodVs P xs
def GoodFs (P : PVal → Prop) : List (String × Value PVal) → Prop
  | [] => True
  | (_, x) :: xs => GoodV P x ∧ GoodFs P xs
end

theorem finite_iff (b : Bytes) (h : b.length = 8) : finiteDouble b = true ↔ Finite b := by
  match b, h with
  | [b0, b1, b2, b3, b4, b5, b6, b7], _ =>
    have h0 := b0.toNat_lt
    have h1 := b1.toNat_lt
    have h2 := b2.toNat_lt
    have h3 := b3.toNat_lt
    have h4 := b4.toNat_lt
    have h5 := b5.toNat_lt
    have h6 := b6.toNat_lt
    have h7 := b7.toNat_lt
    unfold Finite finiteDouble
    simp only [leNat, List.getD_cons_zero, List.getD_cons_succ, Bool.not_eq_true', Bool.and_eq_false_iff, beq_eq_false_iff_ne]
    omega

theorem readNumber_first {t : PyStr} {v : JValue} (h : readNumber t = some (v, [])) :
    ∃ c s, t = c :: s ∧ (c = 0x2d ∨ (0x30 ≤ c ∧ c ≤ 0x39)) := by
  cases t with
  | nil => simp [readNumber, readUnsigned, readDigits] at h
  | cons c s =>
    refine ⟨c, s, rfl, ?_⟩
    by_cases hm : c = 0x2d
    · exact .inl hm
    · right
      rw [readNumber_plain c s hm] at h
      by_cases hd : 0x30 ≤ c ∧ c ≤ 0x39
      · exact hd
      · simp [readUnsigned, readDigits, hd] at h

theorem jv_float {t : PyStr} {v : JValue} (h : readNumber t = some (v, [])) : jv (.float t) = some v := by
  obtain ⟨c, s, rfl, hc⟩ := readNumber_first h
  rw [jv, if_pos hc, h]

theorem all_scalar {s : PyStr} (h : ∀ c ∈ s, Scalar c) : (s.all fun c => decide (c < 0x110000)) = true := by
  rw [List.all_eq_true]; intro c hc; simpa using scalar_lt (h c hc)

theorem jv_str {s : PyStr} (h : ∀ c ∈ s, Scalar c) : jv (.str s) = some (.str (utf16 s)) := by
  rw [jv, if_pos (all_scalar h)]

theorem jv_latin1 (b : Bytes) : jv (.str (latin1 b)) = some (.str (byteChars b)) := by
  have h : ∀ c ∈ latin1 b, c < 256 := by
    intro c hc
    unfold latin1 at hc
    rw [List.mem_map] at hc
    obtain ⟨a, -, rfl⟩ := hc
    exact a.toNat_lt
  rw [jv_str fun c hc => by have := h c hc; unfold Scalar; omega, utf16_bmp _ fun c hc => by have := h c hc; omega]
  rfl

theorem jv_ctrl (c : CtrlChar) : jv (jsonCtrl c) = some (ctrlShown c) := by
  cases c with
  | plain code => rfl
  | tab code width u0 u1 u2 =>
    rw [jsonCtrl, ctrlShown]
    have h1 := jv_latin1 u2
    have e : sortKeys [(lit "width", Json.int width), (lit "unknown0", .int u0), (lit "unknown1", .int u1),
        (lit "unknown2", .str (latin1 u2))] = [(lit "unknown0", Json.int u0), (lit "unknown1", .int u1),
        (lit "unknown2", .str (latin1 u2)), (lit "width", Json.int width)] := rfl
    rw [e]
    have e' : ∀ j, sortKeys [(lit "code", Json.int code), (lit "param", j)] = [(lit "code", Json.int code), (lit "param", j)] :=
      fun _ => rfl
    rw [e']
    have hi : ∀ n : Int, jv (.int n) = some (.num n 0) := fun n => by rw [jv]
    have h2 := jvf_cons_some (hi u0) (jvf_cons_some (hi u1) (jvf_cons_some h1 (jvf_cons_some (hi width) (by rw [jvf]) (key_ok "width"))
      (key_ok "unknown2")) (key_ok "unknown1")) (key_ok "unknown0")
    have h3 := fun j w (h : jv j = some w) => jvf_cons_some (hi code) (jvf_cons_some h (by rw [jvf]) (key_ok "param")) (key_ok "code")
    rw [jv, h3 _ _ (by rw [jv, h2]; rfl)]
    rfl
  | other code chid param =>
    rw [jsonCtrl, ctrlShown]
    have e : sortKeys [(lit "code", Json.int code), (lit "chid", .str (latin1 chid)), (lit "param", .str (latin1 param))] =
      [(lit "chid", .str (latin1 chid)), (lit "code", Json.int code), (lit "param", .str (latin1 param))] := rfl
    have hi : ∀ n : Int, jv (.int n) = some (.num n 0) := fun n => by rw [jv]
    rw [e, jv, jvf_cons_some (jv_latin1 chid) (jvf_cons_some (hi code) (jvf_cons_some (jv_latin1 param) (by rw [jvf])
      (key_ok "param")) (key_ok "code")) (key_ok "chid")]
    rfl

theorem jvs_cons_some {x : Json} {xs : List Json} {w : JValue} {ws : List JValue} (h1 : jv x = some w)
    (h2 : jvs xs = some ws) : jvs (x :: xs) = some (w :: ws) := by rw [jvs, h1, h2]

theorem jvs_map {α} (f : α → Json) (g : α → JValue) (l : List α) (h : ∀ a ∈ l, jv (f a) = some (g a)) :
    jvs (l.map f) = some (l.map g) := by
  induction l with
  | nil => rw [List.map_nil, jvs]; rfl
  | cons a l ih =>
    rw [List.map_cons, List.map_cons]
    exact jvs_cons_some (h a (by simp)) (ih fun b hb => h b (by simp [hb]))

theorem jv_chunk (c : Chunk) (h : match c.val with | .text s => ∀ x ∈ s, Scalar x | .ctrl _ => True) :
    jv (jsonChunk c) = some (chunkShown c) := by
  have hi : ∀ n : Int, jv (.int n) = some (.num n 0) := fun n => by rw [jv]
  have hp : jv (.arr [.int c.start, .int c.stop]) = some (.arr [.num c.start 0, .num c.stop 0]) := by
    rw [jv, jvs_cons_some (hi _) (jvs_cons_some (hi _) (by rw [jvs]))]; rfl
  unfold jsonChunk chunkShown
  cases hv : c.val with
  | text s =>
    rw [hv] at h
    rw [jv, jvs_cons_some hp (jvs_cons_some (jv_str h) (by rw [jvs]))]; rfl
  | ctrl d => rw [jv, jvs_cons_some hp (jvs_cons_some (jv_ctrl d) (by rw [jvs]))]; rfl

theorem undump_hex (b : Bytes) : undump (b.flatMap hex02) = some b := by
  induction b with
  | nil => rfl
  | cons x b ih =>
    rw [List.flatMap_cons, undump_pair, ih]
    rfl

theorem leaf_shown (env : JsonEnv) (hf : NumberText env.floatRepr) (p : PVal) (h : LeafOk p) :
    ∃ j w, jsonLeaf env p = .ok j ∧ jv j = some w ∧ ShowsLeaf env.floatRepr p w := by
  cases p with
  | int n => exact ⟨_, _, rfl, by rw [jv], .int n⟩
  | flags f n => exact ⟨_, _, rfl, by rw [jv], .flags f n⟩
  | str s => exact ⟨_, _, rfl, jv_str h, .str s⟩
  | double b =>
    obtain ⟨hl, hfi⟩ : b.length = 8 ∧ Finite b := h
    have hfin : finiteDouble b = true := (finite_iff b hl).2 hfi
    obtain ⟨m, e, hme⟩ := hf b hl hfi
    refine ⟨_, .num m e, rfl, ?_, .double b m e hme⟩
    rw [jsonFloat, if_pos hfin]
    exact jv_float hme
  | hex b =>
    have ha : ∀ c ∈ b.flatMap hex02, c.toNat < 0x80 := by
      intro c hc
      rw [List.mem_flatMap] at hc
      obtain ⟨x, -, hx⟩ := hc
      have := x.toNat_lt
      simp only [hex02, List.mem_cons, List.not_mem_nil, or_false] at hx
      rcases hx with rfl | rfl
      · exact hexDigit_ascii _ (by omega)
      · exact hexDigit_ascii _ (by omega)
    refine ⟨_, _, rfl, ?_, .hex b (b.flatMap hex02) (undump_hex b) (by
      clear ha h; induction b with
      | nil => rfl
      | cons x b ih => rw [List.flatMap_cons, List.length_append, ih]; simp [hex02]; omega)⟩
    have e : (b.flatMap fun x => (hex02 x).map Char.toNat) = (b.flatMap hex02).map Char.toNat := by
      rw [List.map_flatMap]
    have hl : ∀ c ∈ (b.flatMap hex02).map Char.toNat, c < 0x80 := by
      intro c hc
      rw [List.mem_map] at hc
      obtain ⟨a, ha', rfl⟩ := hc
      exact ha a ha'
    rw [e, jv_str fun c hc => by have := hl c hc; unfold Scalar; omega, utf16_bmp _ fun c hc => by have := hl c hc; omega]
  | chid b => exact ⟨_, _, rfl, jv_latin1 b, .chid b⟩
  | chunks cs =>
    refine ⟨_, _, rfl, ?_, .chunks cs⟩
    rw [jv, jvs_map jsonChunk chunkShown cs fun c hc => jv_chunk c (h c hc)]
    rfl
  | version ns =>
    refine ⟨_, _, rfl, ?_, .version ns⟩
    rw [jv, jvs_map (fun (n : Nat) => .int n) (fun (n : Nat) => .num n 0) ns fun n _ => by rw [jv]]
    rfl
  | cls _ => exact h.elim
  | inst _ => exact h.elim

theorem members_keys {text : Bytes → PyStr} : ∀ (fs : List (String × Value PVal)) (ms : List (List Nat × JValue)), ShowsMembers text fs ms →
    ms.map Prod.fst = fs.map fun x => utf16 (lit x.1)
  | [], _, .nil => rfl
  | _ :: fs, _ :: ms, .cons k x j _ _ h1 h2 => by
    rw [List.map_cons, List.map_cons, members_keys fs ms h2]

mutual
theorem value_shown (env : JsonEnv) (hf : NumberText env.floatRepr) (v : Value PVal) (h : GoodV LeafOk v) :
    ∃ j w, jsonValue env v = .ok j ∧ jv j = some w ∧ ShowsValue env.floatRepr v w := by
  match v with
  | .leaf p =>
    rw [GoodV] at h
    obtain ⟨j, w, h1, h2, h3⟩ := leaf_shown env hf p h
    exact ⟨j, w, by rw [jsonValue, h1], h2, .leaf p w h3⟩
  | .list xs =>
    rw [GoodV] at h
    obtain ⟨js, ws, h1, h2, h3⟩ := values_shown env hf xs h
    exact ⟨.arr js, .arr ws, by rw [jsonValue, h1]; rfl, by rw [jv, h2]; rfl, .list xs ws h3⟩
  | .tuple xs =>
    rw [GoodV] at h
    obtain ⟨js, ws, h1, h2, h3⟩ := values_shown env hf xs h
    exact ⟨.arr js, .arr ws, by rw [jsonValue, h1]; rfl, by rw [jv, h2]; rfl, .tuple xs ws h3⟩
  | .struct fs =>
    rw [GoodV] at h
    obtain ⟨js, ws, h1, h2, h3⟩ := members_shown env hf fs h.2
    obtain ⟨us, h4, h5⟩ := jvf_perm (sortKeys_perm js).symm ws h2
    refine ⟨.obj (sortKeys js), .obj us, by rw [jsonValue, h1]; rfl, by rw [jv, h4]; rfl, .struct fs us ws h3 h5 ?_⟩
    rw [(h5.map Prod.fst).nodup_iff, members_keys _ _ h3]
    have e : (fs.map fun x => utf16 (lit x.1)) = (fs.map Prod.fst).map fun k => utf16 (lit k) := by rw [List.map_map]; rfl
    rw [e]
    exact h.1.map fun a b hab => key_inj hab
theorem values_shown (env : JsonEnv) (hf : NumberText env.floatRepr) (xs : List (Value PVal)) (h : GoodVs LeafOk xs) :
    ∃ js ws, jsonValues env xs = .ok js ∧ jvs js = some ws ∧ ShowsItems env.floatRepr xs ws := by
  match xs with
  | [] => exact ⟨[], [], by rw [jsonValues], by rw [jvs], .nil⟩
  | x :: xs =>
    rw [GoodVs] at h
    obtain ⟨j, w, h1, h2, h3⟩ := value_shown env hf x h.1
    obtain ⟨js, ws, h4, h5, h6⟩ := values_shown env hf xs h.2
    exact ⟨j :: js, w :: ws, by rw [jsonValues, h1, h4]; rfl, jvs_cons_some h2 h5, .cons _ _ _ _ h3 h6⟩
theorem members_shown (env : JsonEnv) (hf : NumberText env.floatRepr) (xs : List (String × Value PVal)) (h : GoodFs LeafOk xs) :
    ∃ js ws, jsonFieldsOf env xs = .ok js ∧ jvf js = some ws ∧ ShowsMembers env.floatRepr xs ws := by
  match xs with
  | [] => exact ⟨[], [], by rw [jsonFieldsOf], by rw [jvf], .nil⟩
  | (k, x) :: xs =>
    rw [GoodFs] at h
    obtain ⟨j, w, h1, h2, h3⟩ := value_shown env hf x h.1
    obtain ⟨js, ws, h4, h5, h6⟩ := members_shown env hf xs h.2
    exact ⟨(lit k, j) :: js, (utf16 (lit k), w) :: ws, by rw [jsonFieldsOf, h1, h4]; rfl,
      jvf_cons_some h2 h5 (key_ok k), .cons _ _ _ _ _ h3 h6⟩
end

/-! ### What is read can be shown -/

/-- What a leaf that was read is like. -/
def LeafRead : PVal → Prop
  | .str s => ∀ c ∈ s, Scalar c
  | .double b => b.length = 8
  | .chunks cs => ∀ c ∈ cs, match c.val with
    | .text s => ∀ x ∈ s, Scalar x
    | .ctrl _ => True
  | .cls _ => False
  | .inst _ => False
  | _ => True

theorem chunks_read (data : Bytes) (idx : Nat) : ∀ c ∈ (parseChunksFrom data idx).out, match c.val with
    | .text s => ∀ x ∈ s, Scalar x
    | .ctrl _ => True := by
  induction hk : data.length - idx using Nat.strongRecOn generalizing idx with
  | ind k ih =>
    intro c hc
    rw [parseChunksFrom] at hc
    split at hc
    · rename_i hidx
      split at hc
      · simp [Gen.raise] at hc
      · rename_i p q hfind
        have hb := ctrlFind_bounds hfind
        have ihq := ih (data.length - q) (by omega) q rfl
        have hw : ∀ c ∈ (if p < q then
            (match ctrlDecode (slice data p q) with
            | .error e => Gen.raise e
            | .ok c => .cons ⟨p / 2, q / 2, .ctrl c⟩ (parseChunksFrom data q))
            else parseChunksFrom data q).out, match c.val with
              | .text s => ∀ x ∈ s, Scalar x
              | .ctrl _ => True := by
          intro c hc
          split at hc
          · split at hc
            · simp [Gen.raise] at hc
            · simp only [Gen.cons, List.mem_cons] at hc
              rcases hc with rfl | hc
              · trivial
              · exact ihq c hc
          · exact ihq c hc
        dsimp only at hc
        split at hc
        · split at hc
          · simp [Gen.raise] at hc
          · rename_i t ht
            simp only [Gen.cons, List.mem_cons] at hc
            rcases hc with rfl | hc
            · exact (encode_utf16leDecode _ _ ht).2
            · exact hw c hc
        · exact hw c hc
    · simp [Gen.done] at hc

theorem prim_leaf (p : PTy) (s r : Bytes) (v : PVal) (h : p.read s = .ok (v, r)) : LeafRead v := by
  cases p with
  | int q =>
    simp only [PTy.read, bind, Except.bind, pure, Except.pure] at h
    split at h
    · cases h
    · injection h with h; injection h with h; subst h; trivial
  | colorref =>
    simp only [PTy.read, bind, Except.bind, pure, Except.pure] at h
    split at h
    · cases h
    · injection h with h; injection h with h; subst h; trivial
  | binStorageId =>
    simp only [PTy.read, bind, Except.bind, pure, Except.pure] at h
    split at h
    · cases h
    · injection h with h; injection h with h; subst h; trivial
  | double =>
    simp only [PTy.read, bind, Except.bind, pure, Except.pure] at h
    split at h
    · cases h
    · split at h
      · cases h
      · rename_i hl
        injection h with h; injection h with h; subst h
        simpa [LeafRead] using hl
  | chid =>
    simp only [PTy.read, bind, Except.bind, pure, Except.pure] at h
    split at h
    · cases h
    · split at h
      · cases h
      · injection h with h; injection h with h; subst h; trivial
  | bstr =>
    simp only [PTy.read, bind, Except.bind, pure, Except.pure] at h
    split at h
    · cases h
    · rename_i q hq
      injection h with h; injection h with h; subst h
      simp only [LeafRead]
      unfold bstrRead at hq
      simp only [bind, Except.bind, pure, Except.pure] at hq
      split at hq
      · cases hq
      · split at hq
        · injection hq with hq; subst hq; simp
        · split at hq
          · cases hq
          · split at hq
            · cases hq
            · rename_i t ht
              injection hq with hq; subst hq
              exact (encode_utf16leDecode _ _ ht).2
  | chunks =>
    simp only [PTy.read] at h
    split at h
    · cases h
    · rename_i cs hcs
      injection h with h; injection h with h; subst h
      simp only [LeafRead]
      have : cs = (parseChunks s).out := by
        unfold Gen.toList at hcs
        split at hcs
        · injection hcs with hcs; exact hcs.symm
        · cases hcs
      subst this
      exact chunks_read s 0
  | hexBytes n =>
    simp only [PTy.read, bind, Except.bind, pure, Except.pure] at h
    split at h
    · cases h
    · injection h with h; injection h with h; subst h; trivial
  | version =>
    simp only [PTy.read, bind, Except.bind, pure, Except.pure] at h
    split at h
    · cases h
    · split at h
      · injection h with h; injection h with h; subst h; trivial
      · cases h

theorem goodVs_append {P : PVal → Prop} : ∀ (xs ys : List (Value PVal)), GoodVs P xs → GoodVs P ys → GoodVs P (xs ++ ys)
  | [], ys, _, h => h
  | x :: xs, ys, h, h' => by
    rw [GoodVs] at h
    rw [List.cons_append, GoodVs]
    exact ⟨h.1, goodVs_append xs ys h.2 h'⟩

theorem readMany_good {P : PVal → Prop} {f : List (Value PVal) → Bytes → Except PyErr (Option (Value PVal) × Bytes)}
    (hf : ∀ acc s v r, f acc s = .ok (some v, r) → GoodV P v) : ∀ (n : Nat) (acc : List (Value PVal)) (s r : Bytes) (xs : List (Value PVal)),
    GoodVs P acc → readMany f n acc s = .ok (xs, r) → GoodVs P xs
  | 0, acc, s, r, xs, ha, h => by
    rw [readMany] at h; injection h with h; injection h with h; subst h; exact ha
  | n + 1, acc, s, r, xs, ha, h => by
    rw [readMany] at h
    split at h
    · cases h
    · exact readMany_good hf n acc _ r xs ha h
    · rename_i v s' hv
      refine readMany_good hf n _ _ r xs (goodVs_append _ _ ha ?_) h
      rw [GoodVs, GoodVs]
      exact ⟨hf _ _ _ _ hv, trivial⟩

theorem setField_good {P : PVal → Prop} (k : String) (v : Value PVal) (hv : GoodV P v) : ∀ (fs : Fields), GoodFs P fs →
    GoodFs P (setField k v fs)
  | [], _ => by rw [setField, GoodFs, GoodFs]; exact ⟨hv, trivial⟩
  | (k', v') :: fs, h => by
    rw [GoodFs] at h
    rw [setField]
    split
    · rw [GoodFs]; exact ⟨hv, h.2⟩
    · rw [GoodFs]; exact ⟨h.1, setField_good k v hv fs h.2⟩

theorem setField_names_nodup (k : String) (v : Value PVal) : ∀ (fs : Fields), (fs.map Prod.fst).Nodup →
    ((setField k v fs).map Prod.fst).Nodup
  | [], _ => by simp [setField]
  | (k', v') :: fs, h => by
    rw [List.map_cons, List.nodup_cons] at h
    rw [setField]
    split
    · rename_i e
      rw [List.map_cons, List.nodup_cons]
      subst e
      exact h
    · rename_i hne
      rw [List.map_cons, List.nodup_cons]
      refine ⟨fun hm => ?_, setField_names_nodup k v fs h.2⟩
      rcases setField_names k v fs k' hm with e | e
      · exact hne e
      · exact h.1 e

theorem arrayResult_good {P : PVal → Prop} {mk : List (Value PVal) → Value PVal} {r : Except PyErr (List (Value PVal) × Bytes)}
    {v : Value PVal} {s : Bytes} (hmk : ∀ xs, GoodVs P xs → GoodV P (mk xs)) (h : arrayResult mk r = .ok (some v, s))
    (hr : ∀ xs s, r = .ok (xs, s) → GoodVs P xs) : GoodV P v := by
  unfold arrayResult at h
  split at h
  · injection h with h; injection h with h; injection h with h; subst h
    exact hmk _ (hr _ _ rfl)
  · cases h

mutual
theorem readTy_good (fe : PyErr) (ver : Option Version) (ctx : DCtx) : ∀ (t : DTy) (p : Option (Value PVal)) (s r : Bytes) (v : Value PVal),
    readTy fe ver ctx p t.toTy s = .ok (some v, r) → GoodV LeafRead v
  | .prim q, p, s, r, v, h => by
    rw [DTy.toTy, readTy] at h
    unfold leafResult at h
    split at h
    · rename_i x s' hx
      injection h with h; injection h with h; injection h with h; subst h
      rw [GoodV]; exact prim_leaf q _ _ _ hx
    · cases h
  | .flags f, p, s, r, v, h => by
    rw [DTy.toTy, readTy] at h
    unfold leafResult at h
    split at h
    · rename_i x s' hx
      injection h with h; injection h with h; injection h with h; subst h
      rw [GoodV]
      cases hq : PTy.read (.int f.base) s with
      | error e => rw [hq] at hx; cases hx
      | ok q =>
        rw [hq] at hx
        injection hx with hx; injection hx with hx; subst hx
        have := prim_leaf _ _ _ _ hq
        unfold toFlags
        split
        · trivial
        · exact this
    · cases h
  | .struct _ ms, p, s, r, v, h => by
    rw [DTy.toTy, readTy] at h
    split at h
    · rename_i fs s' hm
      injection h with h; injection h with h; injection h with h; subst h
      rw [GoodV]
      exact readMembers_good fe ver ctx ms [] s _ fs (by simp) (by rw [GoodFs]; trivial) hm
    · cases h
  | .array t n, p, s, r, v, h => by
    rw [DTy.toTy, readTy] at h
    refine arrayResult_good (fun xs hx => by rw [GoodV]; exact hx) h fun xs s' hr => ?_
    exact readMany_good (fun acc s v r e => readTy_good fe ver ctx t _ s r v e) n [] _ _ _ (by rw [GoodVs]; trivial) hr
  | .nArray c t, p, s, r, v, h => by
    rw [DTy.toTy, readTy] at h
    split at h
    · cases h
    · refine arrayResult_good (fun xs hx => by rw [GoodV]; exact hx) h fun xs s' hr => ?_
      exact readMany_good (fun acc s v r e => readTy_good fe ver ctx t _ s r v e) _ [] _ _ _ (by rw [GoodVs]; trivial) hr
  | .xArray t ref, p, s, r, v, h => by
    rw [DTy.toTy, readTy] at h
    split at h
    · cases h
    · refine arrayResult_good (fun xs hx => by rw [GoodV]; exact hx) h fun xs s' hr => ?_
      exact readMany_good (fun acc s v r e => readTy_good fe ver ctx t _ s r v e) _ [] _ _ _ (by rw [GoodVs]; trivial) hr
  | .selective ref ss, p, s, r, v, h => by
    rw [DTy.toTy, readTy] at h
    split at h
    · cases h
    · exact readSels_good fe ver ctx _ ss p s r v h
theorem readMembers_good (fe : PyErr) (ver : Option Version) (ctx : DCtx) : ∀ (ms : DMembers) (acc : Fields) (s r : Bytes) (fs : Fields),
    (acc.map Prod.fst).Nodup → GoodFs LeafRead acc → Spec.readMembers fe ver ctx ms.toMembers acc s = .ok (fs, r) →
    (fs.map Prod.fst).Nodup ∧ GoodFs LeafRead fs
  | .nil, acc, s, r, fs, hn, hg, h => by
    rw [DMembers.toMembers, Spec.readMembers] at h
    injection h with h; injection h with h; subst h; exact ⟨hn, hg⟩
  | .cons name version condition t rest, acc, s, r, fs, hn, hg, h => by
    rw [DMembers.toMembers, Spec.readMembers.eq_def] at h
    dsimp only at h
    split at h
    · split at h
      · cases h
      · exact readMembers_good fe ver ctx rest acc s r fs hn hg h
      · split at h
        · cases h
        · exact readMembers_good fe ver ctx rest acc _ r fs hn hg h
        · rename_i v s' hv
          exact readMembers_good fe ver ctx rest _ _ r fs (setField_names_nodup _ _ _ hn)
            (setField_good _ _ (readTy_good fe ver ctx t _ _ _ _ hv) _ hg) h
    · exact readMembers_good fe ver ctx rest acc s r fs hn hg h
theorem readSels_good (fe : PyErr) (ver : Option Version) (ctx : DCtx) (key : Int) : ∀ (ss : DSels) (p : Option (Value PVal)) (s r : Bytes) (v : Value PVal),
    readSelected fe ver ctx p key ss.toSelections s = .ok (some v, r) → GoodV LeafRead v
  | .nil, p, s, r, v, h => by
    rw [DSels.toSelections, readSelected] at h
    injection h with h; injection h with h; cases h
  | .cons k t rest, p, s, r, v, h => by
    rw [DSels.toSelections, readSelected] at h
    split at h
    · exact readTy_good fe ver ctx t p s r v h
    · exact readSels_good fe ver ctx key rest p s r v h
end

theorem contentUpdate_good : ∀ (more content : Fields), (content.map Prod.fst).Nodup ∧ GoodFs LeafRead content → GoodFs LeafRead more →
    ((contentUpdate content more).map Prod.fst).Nodup ∧ GoodFs LeafRead (contentUpdate content more)
  | [], content, h, _ => h
  | (k, v) :: more, content, h, h' => by
    rw [GoodFs] at h'
    unfold contentUpdate
    rw [List.foldl_cons]
    exact contentUpdate_good more _ ⟨setField_names_nodup _ _ _ h.1, setField_good _ _ h'.1 _ h.2⟩ h'.2

theorem reads_good {ver : Version} {parent : Option (String × Fields)} {cs : List String} {s s' : Bytes} {content : Fields}
    (h : Reads (directRead ver parent) contentUpdate cs s content s') :
    (content.map Prod.fst).Nodup ∧ GoodFs LeafRead content := by
  induction h with
  | @one c s v r h => exact readMembers_good _ _ _ (membersOf c) [] s r v (by simp) (by rw [GoodFs]; trivial) h
  | @snoc cs c s v w r r' h1 h2 ih =>
    exact contentUpdate_good w v ih (readMembers_good _ _ _ (membersOf c) [] _ _ w (by simp) (by rw [GoodFs]; trivial) h2).2

theorem content_good {ver : Version} {rs : Gen Record} {m : PModel Fields}
    (hm : m ∈ (parseModels (directReader ver) rs).out) : GoodV LeafRead (.struct m.content) := by
  obtain ⟨i, hi⟩ := List.mem_iff_getElem?.1 hm
  obtain ⟨parent, s, h⟩ := parseModels_good (directReader ver) rs i m hi
  have hr := resolveModel_reads h.resolved
  rw [GoodV]
  exact reads_good hr

theorem chainModels_mem {κ} (rd : ModelReader κ) (err : Option PyErr) (gs : List (List Record)) :
    ∀ m ∈ (chainModels rd err gs).out, ∃ rs, m ∈ (parseModels rd rs).out := by
  induction gs with
  | nil => intro m hm; cases hm
  | cons g gs ih =>
    intro m hm
    rw [chainModels] at hm
    split at hm
    · next out h =>
      rcases List.mem_append.1 hm with hm | hm
      · exact ⟨.ofList g, by rw [h]; exact hm⟩
      · exact ih m hm
    · next out e h => exact ⟨.ofList g, by rw [h]; exact hm⟩

/-- Selected models come from the parser. -/
theorem selectModels_mem (rd : ModelReader Fields) (tg seqno : Option PyStr) (s : Bytes) :
    ∀ m ∈ (selectModels rd tg seqno s).out, ∃ rs, m ∈ (parseModels rd rs).out := by
  intro m hm
  unfold selectModels at hm
  simp only [bind, Except.bind, pure, Except.pure] at hm
  split at hm
  · cases hm
  · next g hg =>
    split at hg
    · split at hg
      · cases hg
      · split at hg
        · cases hg
        · injection hg with hg; subst hg
          unfold treegroupModels at hm
          split at hm
          · cases hm
          · cases hm
          · exact ⟨_, hm⟩
    · split at hg
      · cases hg
      · split at hg
        · cases hg
        · split at hg
          · cases hg
          · injection hg with hg; subst hg
            exact chainModels_mem rd _ _ m (List.mem_of_mem_take (List.mem_of_mem_drop hm))
    · injection hg with hg; subst hg
      exact chainModels_mem rd _ _ m hm

mutual
theorem good_finite (v : Value PVal) (h : GoodV LeafRead v) (hd : ∀ b ∈ doubles v, Finite b) : GoodV LeafOk v := by
  match v with
  | .leaf p =>
    rw [GoodV] at h ⊢
    cases p with
    | double b => exact ⟨h, hd b (by rw [doubles]; simp)⟩
    | _ => exact h
  | .list xs => rw [GoodV] at h ⊢; exact goods_finite xs h (by rw [doubles] at hd; exact hd)
  | .tuple xs => rw [GoodV] at h ⊢; exact goods_finite xs h (by rw [doubles] at hd; exact hd)
  | .struct fs => rw [GoodV] at h ⊢; exact ⟨h.1, goodf_finite fs h.2 (by rw [doubles] at hd; exact hd)⟩
theorem goods_finite (xs : List (Value PVal)) (h : GoodVs LeafRead xs) (hd : ∀ b ∈ doublesItems xs, Finite b) : GoodVs LeafOk xs := by
  match xs with
  | [] => rw [GoodVs]; trivial
  | x :: xs =>
    rw [GoodVs] at h ⊢
    rw [doublesItems] at hd
    exact ⟨good_finite x h.1 fun b hb => hd b (by simp [hb]), goods_finite xs h.2 fun b hb => hd b (by simp [hb])⟩
theorem goodf_finite (xs : List (String × Value PVal)) (h : GoodFs LeafRead xs) (hd : ∀ b ∈ doublesMembers xs, Finite b) :
    GoodFs LeafOk xs := by
  match xs with
  | [] => rw [GoodFs]; trivial
  | (_, x) :: xs =>
    rw [GoodFs] at h ⊢
    rw [doublesMembers] at hd
    exact ⟨good_finite x h.1 fun b hb => hd b (by simp [hb]), goodf_finite xs h.2 fun b hb => hd b (by simp [hb])⟩
end

mutual
theorem value_written (env : JsonEnv) (v : Value PVal) (h : GoodV LeafRead v) : ∃ j, jsonValue env v = .ok j := by
  match v with
  | .leaf p =>
    rw [GoodV] at h
    rw [jsonValue]
    cases p with
    | cls _ => exact h.elim
    | inst _ => exact h.elim
    | _ => exact ⟨_, rfl⟩
  | .list xs =>
    rw [GoodV] at h
    obtain ⟨js, e⟩ := values_written env xs h
    exact ⟨_, by rw [jsonValue, e]; rfl⟩
  | .tuple xs =>
    rw [GoodV] at h
    obtain ⟨js, e⟩ := values_written env xs h
    exact ⟨_, by rw [jsonValue, e]; rfl⟩
  | .struct fs =>
    rw [GoodV] at h
    obtain ⟨js, e⟩ := members_written env fs h.2
    exact ⟨_, by rw [jsonValue, e]; rfl⟩
theorem values_written (env : JsonEnv) (xs : List (Value PVal)) (h : GoodVs LeafRead xs) : ∃ js, jsonValues env xs = .ok js := by
  match xs with
  | [] => exact ⟨[], by rw [jsonValues]⟩
  | x :: xs =>
    rw [GoodVs] at h
    obtain ⟨j, e⟩ := value_written env x h.1
    obtain ⟨js, es⟩ := values_written env xs h.2
    exact ⟨_, by rw [jsonValues, e, es]; rfl⟩
theorem members_written (env : JsonEnv) (xs : List (String × Value PVal)) (h : GoodFs LeafRead xs) :
    ∃ js, jsonFieldsOf env xs = .ok js := by
  match xs with
  | [] => exact ⟨[], by rw [jsonFieldsOf]⟩
  | (k, x) :: xs =>
    rw [GoodFs] at h
    obtain ⟨j, e⟩ := value_written env x h.1
    obtain ⟨js, es⟩ := members_written env xs h.2
    exact ⟨_, by rw [jsonFieldsOf, e, es]; rfl⟩
end

end Hwp
