import Verif.Spec.ParaText
import Verif.Proofs.Utf16
import Verif.Proofs.Bytes
set_option linter.unusedSimpArgs false
namespace Hwp
open Spec

theorem ctrlFind_eq (data : Bytes) (s : Nat) : ctrlFind data s =
    match reSearch data s with
    | none => .ok (data.length, data.length)
    | some i =>
      if i &&& 1 = 1 then ctrlFind data (i + 1)
      else
        match data[i]? with
        | none => .error .indexError
        | some c =>
          match ctrlKind c.toNat with
          | none => .error .keyError
          | some k => .ok (i, i + k.size * 2) := by
  rw [ctrlFind]
  split
  · rename_i h; simp [h]
  · rename_i i h; simp only [h]; rfl

theorem unitAt_drop {data : Bytes} {k u : Nat} (h : unitAt data k = some u) :
    ∃ a b t, data.drop (2 * k) = a :: b :: t ∧ u = a.toNat + 256 * b.toNat ∧
      data[2 * k]? = some a ∧ data[2 * k + 1]? = some b ∧ 2 * k + 1 < data.length := by
  unfold unitAt at h
  split at h
  · rename_i a b ha hb
    simp at h
    have hl : 2 * k + 1 < data.length := (List.getElem?_eq_some_iff.1 hb).1
    refine ⟨a, b, data.drop (2 * k + 2), ?_, h.symm, ha, hb, hl⟩
    have h1 := List.drop_eq_getElem_cons (l := data) (i := 2 * k) (by omega)
    have h2 := List.drop_eq_getElem_cons (l := data) (i := 2 * k + 1) hl
    rw [h1, h2]
    rw [List.getElem?_eq_getElem (by omega)] at ha
    rw [List.getElem?_eq_getElem hl] at hb
    simp at ha hb
    rw [ha, hb]
  · cases h

theorem unitAt_none {data : Bytes} {k : Nat} (h : unitAt data k = none) :
    data.length ≤ 2 * k + 1 := by
  unfold unitAt at h
  split at h
  · cases h
  · rename_i hh
    by_cases hl : 2 * k + 1 < data.length
    · exact absurd (List.getElem?_eq_getElem hl)
        (hh _ _ (List.getElem?_eq_getElem (by omega)))
    · omega

theorem unitAt_some {data : Bytes} {k : Nat} (h : 2 * k + 1 < data.length) :
    ∃ u, unitAt data k = some u := by
  cases hu : unitAt data k with
  | none => have := unitAt_none hu; omega
  | some u => exact ⟨u, rfl⟩

theorem even_and_one (k : Nat) : (2 * k) &&& 1 = 0 := by
  rw [Nat.and_one_is_mod]; omega

theorem odd_and_one (k : Nat) : (2 * k + 1) &&& 1 = 1 := by
  rw [Nat.and_one_is_mod]; omega

theorem byte_ctrl {a b : UInt8} {u : Nat} (hu : u = a.toNat + 256 * b.toNat) :
    (a.toNat ≤ 0x1f ∧ b.toNat = 0) ↔ u < 0x20 := by omega

/-- At a control code the search stops. -/
theorem ctrlFind_ctrl {data : Bytes} {k u : Nat} (hu : unitAt data k = some u) (hc : u < 0x20) :
    ctrlFind data (2 * k) = match ctrlKind u with
      | none => .error .keyError
      | some kd => .ok (2 * k, 2 * k + kd.size * 2) := by
  obtain ⟨a, b, t, hd, hv, ha, hb, hl⟩ := unitAt_drop hu
  have hab := (byte_ctrl hv).2 hc
  have hs : reSearch data (2 * k) = some (2 * k) := by
    unfold reSearch; rw [hd]; unfold reSearchGo; rw [if_pos hab]
  have hau : a.toNat = u := by omega
  rw [ctrlFind_eq, hs]
  simp only [even_and_one]
  rw [ha]
  simp only [hau]
  rfl

/-- A code unit that is no control code is skipped, however the bytes around it
look. -/
theorem ctrlFind_skip {data : Bytes} {k u : Nat} (hu : unitAt data k = some u) (hc : 0x20 ≤ u) :
    ctrlFind data (2 * k) = ctrlFind data (2 * (k + 1)) := by
  obtain ⟨a, b, t, hd, hv, ha, hb, hl⟩ := unitAt_drop hu
  have hab : ¬ (a.toNat ≤ 0x1f ∧ b.toNat = 0) := fun h => by
    have := (byte_ctrl hv).1 h; omega
  have hd2 : data.drop (2 * (k + 1)) = t := by
    rw [show 2 * (k + 1) = 2 * k + 2 by omega, ← List.drop_drop, hd]; rfl
  have hs : reSearch data (2 * k) = reSearchGo (2 * k + 1) (b :: t) := by
    unfold reSearch; rw [hd]; conv => lhs; unfold reSearchGo
    rw [if_neg hab]
  cases t with
  | nil =>
    have h1 : reSearch data (2 * k) = none := by rw [hs]; rfl
    have h2 : reSearch data (2 * (k + 1)) = none := by unfold reSearch; rw [hd2]; rfl
    rw [ctrlFind_eq, h1, ctrlFind_eq, h2]
  | cons c t =>
    by_cases hbc : b.toNat ≤ 0x1f ∧ c.toNat = 0
    · have h1 : reSearch data (2 * k) = some (2 * k + 1) := by
        rw [hs]; unfold reSearchGo; rw [if_pos hbc]
      rw [ctrlFind_eq, h1]
      simp only [odd_and_one, if_true]
      rfl
    · have h1 : reSearch data (2 * k) = reSearch data (2 * (k + 1)) := by
        rw [hs]; conv => lhs; unfold reSearchGo
        rw [if_neg hbc]
        unfold reSearch; rw [hd2]; rfl
      rw [ctrlFind_eq, h1, ← ctrlFind_eq]

theorem ctrlFind_end {data : Bytes} {s : Nat} (h : data.length ≤ s) :
    ctrlFind data s = .ok (data.length, data.length) := by
  have h1 : reSearch data s = none := by
    unfold reSearch; rw [List.drop_eq_nil_of_le h]; rfl
  rw [ctrlFind_eq, h1]

/-- The search skips any run of non-control units. -/
theorem ctrlFind_skips {data : Bytes} (n k : Nat)
    (h : ∀ i, k ≤ i → i < k + n → ∃ u, unitAt data i = some u ∧ 0x20 ≤ u) :
    ctrlFind data (2 * k) = ctrlFind data (2 * (k + n)) := by
  induction n generalizing k with
  | zero => rfl
  | succ n ih =>
    obtain ⟨u, h1, h2⟩ := h k (Nat.le_refl _) (by omega)
    rw [ctrlFind_skip h1 h2, ih (k + 1) (fun i hi hi' => h i (by omega) (by omega)),
      show k + 1 + n = k + (n + 1) by omega]

/-- What the search returns on payloads of complete code units. -/
theorem ctrlFind_spec {data : Bytes} (m k : Nat) (hm : data.length = 2 * m) (hk : k ≤ m) :
    ∃ j, k ≤ j ∧ j ≤ m ∧
      (∀ i, k ≤ i → i < j → ∃ u, unitAt data i = some u ∧ 0x20 ≤ u) ∧
      ((j = m ∧ ctrlFind data (2 * k) = .ok (2 * m, 2 * m)) ∨
       (j < m ∧ ∃ u, unitAt data j = some u ∧ u < 0x20 ∧
         ctrlFind data (2 * k) = match ctrlKind u with
          | none => .error .keyError
          | some kd => .ok (2 * j, 2 * j + kd.size * 2))) := by
  induction hn : m - k generalizing k with
  | zero =>
    have : k = m := by omega
    subst this
    exact ⟨k, Nat.le_refl _, Nat.le_refl _, fun i h1 h2 => by omega,
      .inl ⟨rfl, by rw [ctrlFind_end (by omega), hm]⟩⟩
  | succ n ih =>
    obtain ⟨u, hu⟩ := unitAt_some (data := data) (k := k) (by omega)
    by_cases hc : u < 0x20
    · exact ⟨k, Nat.le_refl _, by omega, fun i h1 h2 => by omega,
        .inr ⟨by omega, u, hu, hc, ctrlFind_ctrl hu hc⟩⟩
    · obtain ⟨j, h1, h2, h3, h4⟩ := ih (k + 1) (by omega) (by omega)
      refine ⟨j, by omega, h2, ?_, ?_⟩
      · intro i hi hi'
        rcases Nat.lt_or_ge k i with h | h
        · exact h3 i (by omega) hi'
        · have : i = k := by omega
          subst this; exact ⟨u, hu, by omega⟩
      · rw [ctrlFind_skip hu (by omega)]; exact h4

theorem parseChunksFrom_eq (data : Bytes) (idx : Nat) : parseChunksFrom data idx =
    if idx < data.length then
      match ctrlFind data idx with
      | .error e => .raise e
      | .ok (p, q) =>
        let withCtrl : Gen Chunk :=
          if p < q then
            match ctrlDecode (slice data p q) with
            | .error e => .raise e
            | .ok c => .cons ⟨p / 2, q / 2, .ctrl c⟩ (parseChunksFrom data q)
          else parseChunksFrom data q
        if idx < p then
          match utf16leDecode (slice data idx p) with
          | .error e => .raise e
          | .ok t => .cons ⟨idx / 2, p / 2, .text t⟩ withCtrl
        else withCtrl
    else .done := by
  rw [parseChunksFrom]
  split
  · split
    · rename_i h; simp [h]
    · rename_i p q h
      simp only [h]
      rfl
  · rfl

theorem parseChunksFrom_done {data : Bytes} {idx : Nat} (h : data.length ≤ idx) :
    parseChunksFrom data idx = .done := by
  rw [parseChunksFrom_eq, if_neg (by omega)]

theorem kind_width {u : Nat} {kd : CtrlKind} (h : ctrlKind u = some kd) :
    u < 0x20 ∧ kd.size = ctrlWidth u := by
  unfold ctrlKind at h
  split at h <;> first
    | (injection h with h; subst h; decide)
    | cases h


theorem unpackU_ok {w : Nat} {d : Bytes} {v : Nat} (h : unpackU w d = .ok v) :
    d.length = w ∧ leBytes w v = d := by
  unfold unpackU at h
  split at h
  · rename_i hl
    injection h with h
    subst h
    exact ⟨hl, by rw [← hl, leBytes_leNat]⟩
  · cases h

theorem chidDecode_ok {b c : Bytes} (h : chidDecode b = .ok c) (hl : b.length ≤ 4) :
    c.reverse = b ∧ b.length = 4 := by
  unfold chidDecode at h
  split at h
  · rename_i b0 b1 b2 b3 h0 h1 h2 h3
    injection h with h
    subst h
    match b, hl with
    | [x0, x1, x2, x3], _ => simp at h0 h1 h2 h3; simp [h0, h1, h2, h3]
    | [], _ => simp at h0
    | [x0], _ => simp at h1
    | [x0, x1], _ => simp at h2
    | [x0, x1, x2], _ => simp at h3
    | x0 :: x1 :: x2 :: x3 :: x4 :: t, hl => simp at hl
  · cases h

theorem leBytes_two (u : Nat) (h : u < 65536) : leBytes 2 u = unitBytes u := by
  rw [leBytes, leBytes, leBytes, unitBytes, Nat.mod_eq_of_lt (show u / 256 < 256 by omega)]

theorem take_split (b : Bytes) (i j : Nat) (h : i ≤ j) : b.take j = b.take i ++ slice b i j := by
  unfold slice
  rw [show j = i + (j - i) by omega, List.take_add]; simp

theorem slice_slice (b : Bytes) (i j k l : Nat) (h : i + l ≤ j) :
    slice (slice b i j) k l = slice b (i + k) (i + l) := by
  unfold slice
  rw [List.drop_take, List.take_take, List.drop_drop]
  congr 1
  omega

theorem slice_zero (b : Bytes) (j : Nat) : slice b 0 j = b.take j := by simp [slice]

/-- What a successfully decoded control shows. -/
theorem ctrlDecode_ok {b : Bytes} {u : Nat} {t : Bytes} {x y : UInt8} (hb : b = x :: y :: t)
    (hu : u = x.toNat + 256 * y.toNat)
    {c : CtrlChar} (h : ctrlDecode b = .ok c) :
    c.code = u ∧ ctrlKind u ≠ none ∧
      ctrlBytes c = b.take (if ctrlWidth u = 8 then 14 else 2) := by
  have hx := x.toNat_lt
  have hy := y.toNat_lt
  have hub : unitBytes u = [x, y] := by rw [hu, unitBytes_of_bytes]
  have hcode : unpackU 2 (slice b 0 2) = .ok u := by
    subst hb hu; simp [slice, unpackU, leNat]
  have h2 : b.take 2 = unitBytes u := by subst hb; simp [hub]
  unfold ctrlDecode at h
  simp only [hcode, bind, Except.bind, pure, Except.pure] at h
  split at h
  · cases h
  · rename_i k hk
    have hw := (kind_width hk).2
    refine ⟨?_, by simp [hk], ?_⟩
    · split at h
      · split at h
        · split at h
          · cases h
          · split at h
            · cases h
            · split at h
              · cases h
              · injection h with h; subst h; rfl
        · split at h
          · cases h
          · injection h with h; subst h; rfl
      · injection h with h; subst h; rfl
    · rw [← hw]
      split at h
      · rename_i h8
        rw [if_pos h8]
        split at h
        · rename_i h9
          split at h
          · cases h
          · rename_i w hw'
            split at h
            · cases h
            · rename_i u0 hu0
              split at h
              · cases h
              · rename_i u1 hu1
                injection h with h; subst h
                have e1 := (unpackU_ok hw').2
                have e2 := (unpackU_ok hu0).2
                have e3 := (unpackU_ok hu1).2
                rw [slice_slice _ _ _ _ _ (by omega)] at e1 e2 e3
                simp only [ctrlBytes]
                rw [e1, e2, e3, ← h2]
                rw [show 2 + 0 = 2 from rfl, ← take_split b 2 (2 + 4) (by omega), ← take_split b (2 + 4) (2 + 5) (by omega),
                  ← take_split b (2 + 5) (2 + 6) (by omega)]
                have : (slice b 2 (2 + 12)).drop 6 = slice b 8 14 := by
                  unfold slice; rw [List.drop_take, List.drop_drop]
                rw [this, show 2 + 6 = 8 from rfl, ← take_split b 8 14 (by omega)]
        · split at h
          · cases h
          · rename_i chid hc
            injection h with h; subst h
            have e1 := chidDecode_ok hc (by simp [slice]; omega)
            rw [slice_slice _ _ _ _ _ (by omega)] at e1
            simp only [ctrlBytes]
            rw [e1.1, ← h2, show 2 + 0 = 2 from rfl, ← take_split b 2 (2 + 4) (by omega), slice_slice _ _ _ _ _ (by omega),
              show 2 + 4 = 6 from rfl, ← take_split b 6 14 (by omega)]
      · rename_i h8
        rw [if_neg h8, h2]
        injection h with h; subst h
        rfl

theorem unitAt_slice {data : Bytes} {i j k : Nat} (h : i + k < j) :
    unitAt (slice data (2 * i) (2 * j)) k = unitAt data (i + k) := by
  unfold unitAt slice
  rw [List.getElem?_take, List.getElem?_take, if_pos (by omega), if_pos (by omega),
    List.getElem?_drop, List.getElem?_drop, show 2 * i + 2 * k = 2 * (i + k) by omega,
    show 2 * i + (2 * k + 1) = 2 * (i + k) + 1 by omega]

theorem unitAt_flatten (us : List Nat) (h : ∀ u ∈ us, u < 65536) (k : Nat) :
    unitAt (us.map unitBytes).flatten k = us[k]? := by
  induction us generalizing k with
  | nil => simp [unitAt]
  | cons u us ih =>
    cases k with
    | zero =>
      have := unitBytes_val u (h u (by simp))
      simp [unitAt, unitBytes] at *
      exact this
    | succ k =>
      rw [List.getElem?_cons_succ, ← ih (fun u hu => h u (by simp [hu])) k]
      unfold unitAt
      simp [unitBytes, show 2 * (k + 1) = 2 * k + 1 + 1 by omega]

theorem units_lt {c : Nat} (h : Scalar c) : ∀ u ∈ units c, u < 65536 := by
  intro u hu
  unfold units at hu
  unfold Scalar at h
  split at hu
  · simp at hu; omega
  · simp at hu; omega

theorem strUnits_lt {s : List Nat} (h : ∀ c ∈ s, Scalar c) : ∀ u ∈ strUnits s, u < 65536 := by
  intro u hu
  unfold strUnits at hu
  obtain ⟨l, hl, hu⟩ := List.mem_flatten.1 hu
  obtain ⟨c, hc, rfl⟩ := List.mem_map.1 hl
  exact units_lt (h c hc) u hu

theorem units_ge {c : Nat} (hc : 0x20 ≤ c) : ∀ u ∈ units c, 0x20 ≤ u := by
  intro u hu
  unfold units at hu
  split at hu <;> simp at hu <;> omega

theorem unitAt_append_right (pre data : Bytes) (k i : Nat) (hp : pre.length = 2 * k) :
    unitAt (pre ++ data) (k + i) = unitAt data i := by
  unfold unitAt
  rw [List.getElem?_append_right (by omega), List.getElem?_append_right (by omega), hp]
  rw [show 2 * (k + i) - 2 * k = 2 * i by omega, show 2 * (k + i) + 1 - 2 * k = 2 * i + 1 by omega]

theorem unitAt_append_left (data post : Bytes) (i : Nat) (hp : 2 * i + 1 < data.length) :
    unitAt (data ++ post) i = unitAt data i := by
  unfold unitAt
  rw [List.getElem?_append_left (by omega), List.getElem?_append_left (by omega)]

/-- What the property demands of one chunk. -/
def ChunkSound (data : Bytes) (c : Chunk) : Prop :=
  match c.val with
  | .text s =>
    c.stop * 2 ≤ data.length ∧ slice data (2 * c.start) (2 * c.stop) = encodeUtf16le s ∧
      (∀ x ∈ s, Scalar x) ∧
      ∀ i, c.start ≤ i → i < c.stop → ∃ u, unitAt data i = some u ∧ 0x20 ≤ u
  | .ctrl d =>
    unitAt data c.start = some d.code ∧ d.code < 0x20 ∧ c.stop = c.start + ctrlWidth d.code ∧
      ctrlBytes d = slice data (2 * c.start) (2 * c.start + if ctrlWidth d.code = 8 then 14 else 2)

theorem parseChunksFrom_sound {data : Bytes} (m : Nat) (hm : data.length = 2 * m) (k : Nat)
    {cs : List Chunk} (h : parseChunksFrom data (2 * k) = ⟨cs, none⟩) :
    ∃ hi, Tiles k hi cs ∧ m ≤ max k hi ∧ (k ≤ m → m ≤ hi) ∧ (∀ c ∈ cs, ChunkSound data c) ∧
      (∀ c ∈ cs, m < c.stop → cs.getLast? = some c) ∧
      (k ≤ m → (∀ c ∈ cs, c.stop ≤ m) → hi = m) ∧
      NoAdjacentText cs := by
  induction hn : m - k using Nat.strongRecOn generalizing k cs with
  | ind n ih =>
    by_cases hk : k < m
    · obtain ⟨j, h1, h2, h3, h4⟩ := ctrlFind_spec m k hm (by omega)
      rw [parseChunksFrom_eq, if_pos (by omega)] at h
      rcases h4 with ⟨rfl, h4⟩ | ⟨hj, u, hu, hc, h4⟩
      · rw [h4] at h
        simp only at h
        rw [if_pos (by omega)] at h
        split at h
        · cases h
        · rename_i t ht
          rw [if_neg (by omega), parseChunksFrom_done (by omega)] at h
          injection h with h _
          subst h
          obtain ⟨e1, e2⟩ := encode_utf16leDecode _ _ ht
          refine ⟨j, ?_, by omega, by omega, ?_, ?_, by omega, ?_⟩
          · simp [Tiles, Gen.done]; omega
          · intro c hc
            simp [Gen.done] at hc
            subst hc
            simp only [ChunkSound]
            refine ⟨by omega, ?_, e2, ?_⟩
            · exact e1.symm
            · intro i hi hi'; exact h3 i (by omega) (by omega)
          · intro c hc; simp [Gen.done] at hc; subst hc; simp [Gen.done]
          · simp [Gen.done, NoAdjacentText]
      · rw [h4] at h
        obtain ⟨x, y, t, hd, hv, hax, hay, hl⟩ := unitAt_drop hu
        cases hkd : ctrlKind u with
        | none => rw [hkd] at h; cases h
        | some kd =>
          rw [hkd] at h
          simp only at h
          have hw := (kind_width hkd).2
          have hsz : 0 < kd.size := ctrlKind_size_pos kd
          have hsz8 : kd.size = 1 ∨ kd.size = 8 := by cases kd <;> simp [CtrlKind.size]
          have hslice : ∃ t', slice data (2 * j) (2 * j + kd.size * 2) = x :: y :: t' := by
            unfold slice
            rw [hd, show 2 * j + kd.size * 2 - 2 * j = (kd.size * 2 - 2) + 1 + 1 by omega]
            exact ⟨_, rfl⟩
          obtain ⟨t', ht'⟩ := hslice
          -- the part from the control on
          have key : ∀ cs', (if 2 * j < 2 * j + kd.size * 2 then
              match ctrlDecode (slice data (2 * j) (2 * j + kd.size * 2)) with
              | .error e => Gen.raise e
              | .ok c => .cons ⟨2 * j / 2, (2 * j + kd.size * 2) / 2, .ctrl c⟩
                  (parseChunksFrom data (2 * j + kd.size * 2))
              else parseChunksFrom data (2 * j + kd.size * 2)) = (⟨cs', none⟩ : Gen Chunk) →
              ∃ hi, Tiles j hi cs' ∧ m ≤ hi ∧ (∀ c ∈ cs', ChunkSound data c) ∧
                (∀ c ∈ cs', m < c.stop → cs'.getLast? = some c) ∧
                ((∀ c ∈ cs', c.stop ≤ m) → hi = m) ∧
                NoAdjacentText cs' ∧
                ∃ c0, cs'.head? = some c0 ∧ Chunk.isCtrl c0 = true := by
            intro cs' hcs
            rw [if_pos (by omega)] at hcs
            split at hcs
            · cases hcs
            · rename_i d hdec
              obtain ⟨f1, f2, f3⟩ := ctrlDecode_ok ht' hv hdec
              rw [show 2 * j + kd.size * 2 = 2 * (j + kd.size) by omega] at hcs
              cases hrest : parseChunksFrom data (2 * (j + kd.size)) with
              | mk cs2 err =>
              rw [hrest] at hcs
              simp only [Gen.cons, Gen.mk.injEq] at hcs
              obtain ⟨hcs1, hcs2⟩ := hcs
              subst hcs2
              subst hcs1
              obtain ⟨hi, g1, g2, g3, g4, g5, g6, g7⟩ := ih (m - (j + kd.size)) (by omega) (j + kd.size) hrest rfl
              have q1 : 2 * j / 2 = j := by omega
              have q2 : 2 * (j + kd.size) / 2 = j + kd.size := by omega
              refine ⟨hi, ?_, ?_, ?_, ?_, ?_, ?_, ⟨_, rfl, rfl⟩⟩
              · rw [Tiles]; exact ⟨q1, by dsimp only; omega, by rw [q2]; exact g1⟩
              · rcases Nat.lt_or_ge m (j + kd.size) with hlt | hge
                · have : cs2 = [] := by
                    rw [parseChunksFrom_done (by omega)] at hrest
                    injection hrest with hr _; exact hr.symm
                  subst this
                  simp only [Tiles] at g1; omega
                · exact g3 hge
              · intro c hc
                rcases List.mem_cons.1 hc with rfl | hc
                · simp only [ChunkSound]
                  rw [q1, q2, f1]
                  refine ⟨hu, by omega, by omega, ?_⟩
                  rw [f3, hw]
                  unfold slice
                  rw [List.take_take]
                  congr 1
                  rw [← hw]
                  rcases hsz8 with h8 | h8 <;> rw [h8] <;> simp
                · exact g4 c hc
              · intro c hc hlt
                rcases List.mem_cons.1 hc with rfl | hc
                · simp only [q2] at hlt
                  have : cs2 = [] := by
                    rw [parseChunksFrom_done (by omega)] at hrest
                    injection hrest with hr _; exact hr.symm
                  subst this; rfl
                · have := g5 c hc hlt
                  rw [List.getLast?_cons, this]; rfl
              · intro hall
                have := hall _ (List.mem_cons_self)
                simp only [q2] at this
                exact g6 this (fun c hc => hall c (List.mem_cons_of_mem _ hc))
              · cases cs2 with
                | nil => trivial
                | cons b t => exact ⟨.inl rfl, g7⟩
          by_cases hkj : 2 * k < 2 * j
          · rw [if_pos hkj] at h
            split at h
            · cases h
            · rename_i s hs
              obtain ⟨e1, e2⟩ := encode_utf16leDecode _ _ hs
              generalize hg : (if 2 * j < 2 * j + kd.size * 2 then
                match ctrlDecode (slice data (2 * j) (2 * j + kd.size * 2)) with
                | .error e => Gen.raise e
                | .ok c => .cons ⟨2 * j / 2, (2 * j + kd.size * 2) / 2, .ctrl c⟩
                    (parseChunksFrom data (2 * j + kd.size * 2))
                else parseChunksFrom data (2 * j + kd.size * 2)) = g at h
              obtain ⟨cs', err⟩ := g
              simp only [Gen.cons, Gen.mk.injEq] at h
              obtain ⟨hcs1, hcs2⟩ := h
              subst hcs2
              subst hcs1
              obtain ⟨hi, g1, g2, g3, g4, g5, g6, c0, g7, g8⟩ := key cs' hg
              have q1 : 2 * j / 2 = j := by omega
              have q2 : 2 * k / 2 = k := by omega
              refine ⟨hi, ?_, by omega, by omega, ?_, ?_, ?_, ?_⟩
              · rw [Tiles]; exact ⟨q2, by dsimp only; omega, by rw [q1]; exact g1⟩
              · intro c hc
                rcases List.mem_cons.1 hc with rfl | hc
                · simp only [ChunkSound]
                  rw [q1, q2]
                  exact ⟨by omega, e1.symm, e2, h3⟩
                · exact g3 c hc
              · intro c hc hlt
                rcases List.mem_cons.1 hc with rfl | hc
                · simp only [q1] at hlt; omega
                · rw [List.getLast?_cons, g4 c hc hlt]; rfl
              · intro _ hall
                exact g5 (fun c hc => hall c (List.mem_cons_of_mem _ hc))
              · cases cs' with
                | nil => trivial
                | cons b t =>
                  simp at g7
                  subst g7
                  exact ⟨.inr g8, g6⟩
          · rw [if_neg hkj] at h
            have : j = k := by omega
            subst this
            obtain ⟨hi, g1, g2, g3, g4, g5, g6, _⟩ := key cs h
            exact ⟨hi, g1, by omega, by omega, g3, g4, fun _ => g5, g6⟩
    · rw [parseChunksFrom_done (by omega)] at h
      injection h with h _
      subst h
      exact ⟨k, rfl, by omega, by omega, by simp, by simp, by intro hk' _; omega, trivial⟩

end Hwp
