/- The readers of property sets are what `read_type` does for the declarations. -/
import Verif.Spec.Msoleprops
import Verif.Spec.Bintype
set_option linter.unusedSimpArgs false
namespace Hwp
open Spec

/-- An item of a declared type is read like `item`, giving `enc a`. -/
def ReadsAs {α : Type} (t : Ty Nat Unit) (item : Bytes → Except PyErr (α × Bytes)) (f : Value Nat → Except PyErr α) : Prop :=
  ∀ parent s,
    (∀ e, item s = .error e → readTy .keyError none () parent t s = .error e) ∧
    (∀ a r, item s = .ok (a, r) → ∃ v, readTy .keyError none () parent t s = .ok (some v, r) ∧ f v = .ok a)

theorem readsAs_prim (w : Nat) : ReadsAs (.prim (readU w)) (fun s => orParseError (readU w s)) valueNat := by
  intro parent s
  rw [readTy]
  cases h : readU w s with
  | error e =>
    simp [orParseError, leafResult, h]
  | ok p =>
    obtain ⟨v, r⟩ := p
    simp only [h, orParseError, leafResult, Except.ok.injEq, Prod.mk.injEq, reduceCtorEq, false_implies, implies_true, true_and]
    rintro a r' ⟨rfl, rfl⟩
    exact ⟨_, ⟨rfl, rfl⟩, rfl⟩

theorem readMany_items {α : Type} (t : Ty Nat Unit) (item : Bytes → Except PyErr (α × Bytes))
    (f : Value Nat → Except PyErr α) (h : ReadsAs t item f) (n : Nat) : ∀ acc s,
    (∀ e, readItems item n s = .error e →
      readMany (fun acc s => readTy .keyError none () (some (.list acc)) t s) n acc s = .error e) ∧
    (∀ xs r, readItems item n s = .ok (xs, r) → ∃ vs,
      readMany (fun acc s => readTy .keyError none () (some (.list acc)) t s) n acc s = .ok (acc ++ vs, r) ∧
      mapItems f vs = .ok xs) := by
  induction n with
  | zero =>
    intro acc s
    simp only [readItems, readMany, reduceCtorEq, false_implies, implies_true, true_and, Except.ok.injEq, Prod.mk.injEq]
    rintro xs r ⟨rfl, rfl⟩
    exact ⟨[], by simp, rfl⟩
  | succ n ih =>
    intro acc s
    obtain ⟨h1, h2⟩ := h (some (.list acc)) s
    simp only [readItems, readMany, bind, Except.bind]
    cases hi : item s with
    | error e => simp [h1 e hi]
    | ok p =>
      obtain ⟨a, r⟩ := p
      obtain ⟨v, hv, hf⟩ := h2 a r hi
      simp only [hv]
      obtain ⟨i1, i2⟩ := ih (acc ++ [v]) r
      cases hr : readItems item n r with
      | error e => simp [i1 e hr]
      | ok p =>
        obtain ⟨xs, r'⟩ := p
        obtain ⟨vs, hvs, hm⟩ := i2 xs r' hr
        simp only [pure, Except.pure, reduceCtorEq, false_implies, implies_true, true_and, Except.ok.injEq, Prod.mk.injEq]
        rintro ys q ⟨rfl, rfl⟩
        refine ⟨v :: vs, ⟨by rw [hvs]; simp, ?_⟩⟩
        simp [mapItems, hf, hm, bind, Except.bind, pure, Except.pure]

/-- The items of a list or tuple. -/
def itemsThen {α : Type} (f : Value Nat → Except PyErr α) (v : Value Nat) : Except PyErr (List α) := do
  let xs ← valueItems v
  mapItems f xs

theorem readsAs_narray {α : Type} (t : Ty Nat Unit) (item : Bytes → Except PyErr (α × Bytes))
    (f : Value Nat → Except PyErr α) (h : ReadsAs t item f) :
    ReadsAs (.varArray (readU 4) t) (readNArray item) (itemsThen f) := by
  intro parent s
  rw [readTy]
  unfold readNArray readU32
  cases hu : readU 4 s with
  | error e => simp [orParseError, bind, Except.bind]
  | ok p =>
    obtain ⟨n, r⟩ := p
    simp only [orParseError, bind, Except.bind]
    obtain ⟨h1, h2⟩ := readMany_items t item f h n [] r
    cases hi : readItems item n r with
    | error e => simp [h1 e hi, arrayResult]
    | ok p =>
      obtain ⟨xs, r'⟩ := p
      obtain ⟨vs, hvs, hm⟩ := h2 xs r' hi
      simp only [reduceCtorEq, false_implies, implies_true, true_and, Except.ok.injEq, Prod.mk.injEq]
      rintro ys q ⟨rfl, rfl⟩
      refine ⟨.list vs, by rw [hvs]; simp [arrayResult], ?_⟩
      simp [itemsThen, valueItems, bind, Except.bind, hm]

theorem readsAs_array {α : Type} (t : Ty Nat Unit) (item : Bytes → Except PyErr (α × Bytes))
    (f : Value Nat → Except PyErr α) (h : ReadsAs t item f) (n : Nat) :
    ReadsAs (.fixedArray t n) (readItems item n) (itemsThen f) := by
  intro parent s
  rw [readTy]
  obtain ⟨h1, h2⟩ := readMany_items t item f h n [] s
  cases hi : readItems item n s with
  | error e => simp [h1 e hi, arrayResult]
  | ok p =>
    obtain ⟨xs, r'⟩ := p
    obtain ⟨vs, hvs, hm⟩ := h2 xs r' hi
    simp only [reduceCtorEq, false_implies, implies_true, true_and, Except.ok.injEq, Prod.mk.injEq]
    rintro ys q ⟨rfl, rfl⟩
    refine ⟨.tuple vs, by rw [hvs]; simp [arrayResult], ?_⟩
    simp [itemsThen, valueItems, bind, Except.bind, hm]

/-- Reading an unconditional member. -/
theorem readMembers_cons {α : Type} (t : Ty Nat Unit) (item : Bytes → Except PyErr (α × Bytes))
    (f : Value Nat → Except PyErr α) (h : ReadsAs t item f) (name : String) (rest : Members Nat Unit)
    (fs : List (String × Value Nat)) (s : Bytes) :
    (∀ e, item s = .error e → readMembers .keyError none () (.cons name none none t rest) fs s = .error e) ∧
    (∀ a r, item s = .ok (a, r) → ∃ v, f v = .ok a ∧
      readMembers .keyError none () (.cons name none none t rest) fs s =
        readMembers .keyError none () rest (setField name v fs) r) := by
  obtain ⟨h1, h2⟩ := h (some (.struct fs)) s
  rw [readMembers]
  simp only [versionOk, if_true]
  constructor
  · intro e he
    rw [h1 e he]
  · intro a r ha
    obtain ⟨v, hv, hf⟩ := h2 a r ha
    exact ⟨v, hf, by rw [hv]⟩

theorem readsAs_u32 : ReadsAs tU32 readU32 valueNat := readsAs_prim 4
theorem readsAs_u16 : ReadsAs tU16 readU16 valueNat := readsAs_prim 2
theorem readsAs_byte : ReadsAs tByte readByte valueNat := readsAs_prim 1

theorem readsAs_propDesc : ReadsAs tyPropDesc readPropDesc propDescFromDict := by
  intro parent s
  unfold tyPropDesc
  rw [readTy]
  obtain ⟨a1, a2⟩ := readMembers_cons tU32 readU32 valueNat readsAs_u32 "id" (.cons "offset" none none tU32 .nil) [] s
  unfold readPropDesc
  simp only [bind, Except.bind]
  cases hi : readU32 s with
  | error e => simp [a1 e hi]
  | ok p =>
    obtain ⟨id, r⟩ := p
    obtain ⟨v, hv, hm⟩ := a2 id r hi
    rw [hm]
    obtain ⟨b1, b2⟩ := readMembers_cons tU32 readU32 valueNat readsAs_u32 "offset" .nil (setField "id" v []) r
    simp only
    cases ho : readU32 r with
    | error e => simp [b1 e ho]
    | ok p =>
      obtain ⟨off, r'⟩ := p
      obtain ⟨w, hw, hm2⟩ := b2 off r' ho
      rw [hm2]
      simp only [readMembers, pure, Except.pure, reduceCtorEq, false_implies, implies_true, true_and,
        Except.ok.injEq, Prod.mk.injEq]
      rintro x q ⟨rfl, rfl⟩
      refine ⟨_, ⟨rfl, rfl⟩, ?_⟩
      simp [propDescFromDict, valueItem, setField, hv, hw, bind, Except.bind, pure, Except.pure]

theorem readsAs_propSetHeader : ReadsAs tyPropSetHeader readPropSetHeader propSetHeaderFromDict := by
  intro parent s
  unfold tyPropSetHeader
  rw [readTy]
  obtain ⟨a1, a2⟩ := readMembers_cons tU32 readU32 valueNat readsAs_u32 "bytesize"
    (.cons "propDescList" none none (.varArray (readU 4) tyPropDesc) .nil) [] s
  unfold readPropSetHeader
  simp only [bind, Except.bind]
  cases hi : readU32 s with
  | error e => simp [a1 e hi]
  | ok p =>
    obtain ⟨id, r⟩ := p
    obtain ⟨v, hv, hm⟩ := a2 id r hi
    rw [hm]
    obtain ⟨b1, b2⟩ := readMembers_cons _ _ _ (readsAs_narray _ _ _ readsAs_propDesc) "propDescList" .nil
      (setField "bytesize" v []) r
    simp only
    cases ho : readNArray readPropDesc r with
    | error e => simp [b1 e ho]
    | ok p =>
      obtain ⟨off, r'⟩ := p
      obtain ⟨w, hw, hm2⟩ := b2 off r' ho
      rw [hm2]
      simp only [readMembers, pure, Except.pure, reduceCtorEq, false_implies, implies_true, true_and,
        Except.ok.injEq, Prod.mk.injEq]
      rintro x q ⟨rfl, rfl⟩
      refine ⟨_, ⟨rfl, rfl⟩, ?_⟩
      simp only [itemsThen, bind, Except.bind] at hw
      simp [propSetHeaderFromDict, valueItem, setField, bind, Except.bind, pure, Except.pure]
      exact hw

theorem readsAs_dictEntry : ReadsAs tyDictEntry readDictEntry dictEntryFromDict := by
  intro parent s
  unfold tyDictEntry
  rw [readTy]
  obtain ⟨a1, a2⟩ := readMembers_cons tU32 readU32 valueNat readsAs_u32 "id"
    (.cons "name" none none (.varArray (readU 4) tByte) .nil) [] s
  unfold readDictEntry
  simp only [bind, Except.bind]
  cases hi : readU32 s with
  | error e => simp [a1 e hi]
  | ok p =>
    obtain ⟨id, r⟩ := p
    obtain ⟨v, hv, hm⟩ := a2 id r hi
    rw [hm]
    obtain ⟨b1, b2⟩ := readMembers_cons _ _ _ (readsAs_narray _ _ _ readsAs_byte) "name" .nil
      (setField "id" v []) r
    simp only
    cases ho : readNArray readByte r with
    | error e => simp [b1 e ho]
    | ok p =>
      obtain ⟨name, r'⟩ := p
      obtain ⟨w, hw, hm2⟩ := b2 name r' ho
      rw [hm2]
      simp only [readMembers, pure, Except.pure, reduceCtorEq, false_implies, implies_true, true_and,
        Except.ok.injEq, Prod.mk.injEq]
      rintro x q ⟨rfl, rfl⟩
      refine ⟨_, ⟨rfl, rfl⟩, ?_⟩
      simp only [itemsThen, bind, Except.bind] at hw
      cases hw2 : valueItems w with
      | error e => simp [hw2] at hw
      | ok ws =>
        simp only [hw2] at hw
        simp [dictEntryFromDict, valueItem, setField, bind, Except.bind, pure, Except.pure, hv, hw2, hw]

theorem readsAs_dictionary : ReadsAs tyDictionary
    (fun s => do let (es, r) ← readNArray readDictEntry s; return (PropValue.dictionary es, r)) dictionaryFromDict := by
  intro parent s
  unfold tyDictionary
  rw [readTy]
  obtain ⟨b1, b2⟩ := readMembers_cons _ _ _ (readsAs_narray _ _ _ readsAs_dictEntry) "entries" .nil [] s
  simp only [bind, Except.bind]
  cases ho : readNArray readDictEntry s with
  | error e => simp [b1 e ho]
  | ok p =>
    obtain ⟨es, r'⟩ := p
    obtain ⟨w, hw, hm2⟩ := b2 es r' ho
    rw [hm2]
    simp only [readMembers, pure, Except.pure, reduceCtorEq, false_implies, implies_true, true_and,
      Except.ok.injEq, Prod.mk.injEq]
    rintro x q ⟨rfl, rfl⟩
    refine ⟨_, ⟨rfl, rfl⟩, ?_⟩
    simp only [itemsThen, bind, Except.bind] at hw
    cases hw2 : valueItems w with
    | error e => simp [hw2] at hw
    | ok ws =>
      simp only [hw2] at hw
      simp [dictionaryFromDict, valueItem, setField, bind, Except.bind, pure, Except.pure, hw2, hw]

theorem readsAs_propSetDesc : ReadsAs tyPropSetDesc readPropSetDesc propSetDescFromDict := by
  intro parent s
  unfold tyPropSetDesc
  rw [readTy]
  obtain ⟨a1, a2⟩ := readMembers_cons _ _ _ (readsAs_array _ _ _ readsAs_byte 16) "fmtid"
    (.cons "offset" none none tU32 .nil) [] s
  unfold readPropSetDesc
  simp only [bind, Except.bind]
  cases hi : readItems readByte 16 s with
  | error e => simp [a1 e hi]
  | ok p =>
    obtain ⟨id, r⟩ := p
    obtain ⟨v, hv, hm⟩ := a2 id r hi
    rw [hm]
    obtain ⟨b1, b2⟩ := readMembers_cons tU32 readU32 valueNat readsAs_u32 "offset" .nil (setField "fmtid" v []) r
    simp only
    cases ho : readU32 r with
    | error e => simp [b1 e ho]
    | ok p =>
      obtain ⟨off, r'⟩ := p
      obtain ⟨w, hw, hm2⟩ := b2 off r' ho
      rw [hm2]
      simp only [readMembers, pure, Except.pure, reduceCtorEq, false_implies, implies_true, true_and,
        Except.ok.injEq, Prod.mk.injEq]
      rintro x q ⟨rfl, rfl⟩
      refine ⟨_, ⟨rfl, rfl⟩, ?_⟩
      simp only [itemsThen, bind, Except.bind] at hv
      cases hv2 : valueItems v with
      | error e => simp [hv2] at hv
      | ok ws =>
        simp only [hv2] at hv
        simp [propSetDescFromDict, valueItem, setField, bind, Except.bind, pure, Except.pure, hv2, hv, hw]

theorem readsAs_streamHeader : ReadsAs tyStreamHeader readStreamHeader streamHeaderFromDict := by
  intro parent s
  unfold tyStreamHeader
  rw [readTy]
  obtain ⟨a1, a2⟩ := readMembers_cons _ _ _ readsAs_u16 "byteOrder"
    (.cons "version" none none tU16 (.cons "systemIdentifier" none none tU32
      (.cons "clsid" none none (.fixedArray tByte 16)
        (.cons "propsetDescList" none none (.varArray (readU 4) tyPropSetDesc) .nil)))) [] s
  unfold readStreamHeader
  simp only [bind, Except.bind]
  cases h1 : readU16 s with
  | error e => simp [a1 e h1]
  | ok p =>
    obtain ⟨x1, s1⟩ := p
    obtain ⟨v1, hv1, hm1⟩ := a2 x1 s1 h1
    rw [hm1]
    obtain ⟨b1, b2⟩ := readMembers_cons _ _ _ readsAs_u16 "version" (.cons "systemIdentifier" none none tU32
      (.cons "clsid" none none (.fixedArray tByte 16)
        (.cons "propsetDescList" none none (.varArray (readU 4) tyPropSetDesc) .nil))) (setField "byteOrder" v1 []) s1
    simp only
    cases h2 : readU16 s1 with
    | error e => simp [b1 e h2]
    | ok p =>
      obtain ⟨x2, s2⟩ := p
      obtain ⟨v2, hv2, hm2⟩ := b2 x2 s2 h2
      rw [hm2]
      obtain ⟨c1, c2⟩ := readMembers_cons _ _ _ readsAs_u32 "systemIdentifier" 
        (.cons "clsid" none none (.fixedArray tByte 16)
          (.cons "propsetDescList" none none (.varArray (readU 4) tyPropSetDesc) .nil))
        (setField "version" v2 (setField "byteOrder" v1 [])) s2
      simp only
      cases h3 : readU32 s2 with
      | error e => simp [c1 e h3]
      | ok p =>
        obtain ⟨x3, s3⟩ := p
        obtain ⟨v3, hv3, hm3⟩ := c2 x3 s3 h3
        rw [hm3]
        obtain ⟨d1, d2⟩ := readMembers_cons _ _ _ (readsAs_array _ _ _ readsAs_byte 16) "clsid"
          (.cons "propsetDescList" none none (.varArray (readU 4) tyPropSetDesc) .nil)
          (setField "systemIdentifier" v3 (setField "version" v2 (setField "byteOrder" v1 []))) s3
        simp only
        cases h4 : readItems readByte 16 s3 with
        | error e => simp [d1 e h4]
        | ok p =>
          obtain ⟨x4, s4⟩ := p
          obtain ⟨v4, hv4, hm4⟩ := d2 x4 s4 h4
          rw [hm4]
          obtain ⟨e1, e2⟩ := readMembers_cons _ _ _ (readsAs_narray _ _ _ readsAs_propSetDesc) "propsetDescList" .nil
            (setField "clsid" v4 (setField "systemIdentifier" v3 (setField "version" v2 (setField "byteOrder" v1 [])))) s4
          simp only
          cases h5 : readNArray readPropSetDesc s4 with
          | error e => simp [e1 e h5]
          | ok p =>
            obtain ⟨x5, s5⟩ := p
            obtain ⟨v5, hv5, hm5⟩ := e2 x5 s5 h5
            rw [hm5]
            simp only [readMembers, pure, Except.pure, reduceCtorEq, false_implies, implies_true, true_and,
              Except.ok.injEq, Prod.mk.injEq]
            rintro x q ⟨rfl, rfl⟩
            refine ⟨_, ⟨rfl, rfl⟩, ?_⟩
            simp only [itemsThen, bind, Except.bind] at hv4 hv5
            cases hv4' : valueItems v4 with
            | error e => simp [hv4'] at hv4
            | ok ws =>
              cases hv5' : valueItems v5 with
              | error e => simp [hv5'] at hv5
              | ok ws5 =>
                simp only [hv4'] at hv4
                simp only [hv5'] at hv5
                simp [streamHeaderFromDict, valueItem, setField, bind, Except.bind, pure, Except.pure,
                  hv4', hv4, hv5', hv5]

theorem readThen_eq {α : Type} {t : Ty Nat Unit} {item : Bytes → Except PyErr (α × Bytes)}
    {f : Value Nat → Except PyErr α} (h : ReadsAs t item f) (s : Bytes) :
    readThen f (readWhole .keyError none () t s) = item s := by
  obtain ⟨h1, h2⟩ := h none s
  unfold readThen readWhole
  cases hi : item s with
  | error e => rw [h1 e hi]; rfl
  | ok p =>
    obtain ⟨a, r⟩ := p
    obtain ⟨v, hv, hf⟩ := h2 a r hi
    rw [hv]
    simp [bind, Except.bind, hf, pure, Except.pure]

end Hwp
