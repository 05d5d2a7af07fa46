import Verif.Model.Usize
import Verif.Properties.ShortBatch

/-
C116: the limits of 64-bit positions.
-/

set_option linter.unusedSectionVars false

namespace PoS

/-- The first `n` pieces of `len` bytes all start below 2^63, and a piece can be allocated. -/
def Reach (len n : Nat) : Prop := n = 0 ∨ (len < 2 ^ 63 ∧ (n - 1) * len < 2 ^ 63)

instance (len n : Nat) : Decidable (Reach len n) := by unfold Reach; infer_instance

theorem Reach.piece {len n k : Nat} (h : Reach len n) (hk : k < n) : len < 2 ^ 63 ∧ k * len < 2 ^ 63 := by
  rcases h with h | ⟨h1, h2⟩
  · omega
  · exact ⟨h1, Nat.lt_of_le_of_lt (Nat.mul_le_mul_right _ (by omega)) h2⟩

theorem Reach.mono {len n m : Nat} (h : Reach len n) (hm : m ≤ n) : Reach len m := by
  rcases Nat.eq_zero_or_pos m with h0 | h0
  · exact Or.inl h0
  · exact Or.inr (h.piece (by omega))

/-- Files that exist are shorter than 2^63 bytes, so all their pieces are within reach. -/
theorem reach_of_lt {len n : Nat} (h : n * len < 2 ^ 63) : Reach len n := by
  rcases Nat.eq_zero_or_pos n with h0 | h0
  · exact Or.inl h0
  · exact Or.inr ⟨Nat.lt_of_le_of_lt (Nat.le_mul_of_pos_left _ h0) h,
      Nat.lt_of_le_of_lt (Nat.mul_le_mul_right _ (Nat.sub_le _ _)) h⟩

/-! ### single reads -/

theorem readFileU_ok {begin_ len : Nat} (hl : len < 2 ^ 63) (hb : begin_ < 2 ^ 63) (file : Bytes) :
    readFileU file begin_ len = .ok (readFile file begin_ len) := by
  unfold readFileU alloc! seek!
  rw [if_pos hl, if_pos hb]
  rfl

theorem readFileU_error {begin_ len : Nat} (h : ¬ (len < 2 ^ 63 ∧ begin_ < 2 ^ 63)) (file : Bytes) :
    ∃ e, readFileU file begin_ len = .error e := by
  unfold readFileU alloc! seek!
  by_cases hl : len < 2 ^ 63
  · rw [if_pos hl, if_neg (fun hb => h ⟨hl, hb⟩)]
    exact ⟨_, rfl⟩
  · rw [if_neg hl]
    exact ⟨_, rfl⟩

theorem mul!_ok {a b : Nat} (h : a * b < 2 ^ 64) : mul! a b = .ok (a * b) := by
  unfold mul!; rw [if_pos h]

theorem add!_ok {a b : Nat} (h : a + b < 2 ^ 64) : add! a b = .ok (a + b) := by
  unfold add!; rw [if_pos h]

theorem lt64 {a : Nat} (h : a < 2 ^ 63) : a < 2 ^ 64 := Nat.lt_trans h (by norm_num)

/-- Multiplying and reading, for a piece within reach. -/
theorem mulRead_ok {k len : Nat} (h : len < 2 ^ 63 ∧ k * len < 2 ^ 63) (file : Bytes) {α : Type} (F : Bytes → R α) :
    (mul! k len >>= fun pos => readFileU file pos len >>= F) = F (readFile file (k * len) len) := by
  rw [mul!_ok (lt64 h.2), bind_ok, readFileU_ok h.1 h.2, bind_ok]

theorem mulRead_error {k len : Nat} (h : ¬ (len < 2 ^ 63 ∧ k * len < 2 ^ 63)) (file : Bytes) {α : Type}
    (F : Bytes → R α) : ∃ e, (mul! k len >>= fun pos => readFileU file pos len >>= F) = .error e := by
  unfold mul!
  by_cases hm : k * len < 2 ^ 64
  · rw [if_pos hm, bind_ok]
    obtain ⟨e, he⟩ := readFileU_error h file
    exact ⟨e, by rw [he, bind_error]⟩
  · rw [if_neg hm]
    exact ⟨_, rfl⟩

theorem toUnitsAuxU_eq {data : Bytes} {len : Nat} (hd : data.length ≤ 2 ^ 63) (hl : len < 2 ^ 64) (fuel : Nat) :
    ∀ i, (i = 0 ∨ len ≤ i) → toUnitsAuxU fuel data len i = toUnitsAux fuel data len i := by
  induction fuel with
  | zero => intro i _; rfl
  | succ fuel ih =>
    intro i hi
    unfold toUnitsAuxU toUnitsAux
    by_cases h : i < data.length
    · rw [if_pos h, if_pos h]
      have : i + len < 2 ^ 64 := by
        have : (2 : Nat) ^ 64 = 2 ^ 63 + 2 ^ 63 := by norm_num
        omega
      rw [add!_ok this, bind_ok, ih (i + len) (Or.inr (by omega))]
    · rw [if_neg h, if_neg h]

theorem toUnitsU_eq {data : Bytes} {len : Nat} (hd : data.length ≤ 2 ^ 63) (hl : len < 2 ^ 64) :
    toUnitsU data len = toUnits data len := by
  unfold toUnitsU toUnits
  rw [toUnitsAuxU_eq hd hl _ 0 (Or.inl rfl)]

theorem readUnitsU_ok {params : PosPara} (hu : params.unitPl < 2 ^ 64) {k : Nat}
    (h : params.blockPl < 2 ^ 63 ∧ k * params.blockPl < 2 ^ 63) (file : Bytes) :
    readUnitsU params file k = toUnits (readFile file (k * params.blockPl) params.blockPl) params.unitPl := by
  unfold readUnitsU
  rw [mulRead_ok h file (fun buf => toUnitsU buf params.unitPl)]
  exact toUnitsU_eq (by rw [readFile_length]; exact h.1.le) hu

theorem readUnitsU_error {params : PosPara} {k : Nat}
    (h : ¬ (params.blockPl < 2 ^ 63 ∧ k * params.blockPl < 2 ^ 63)) (file : Bytes) :
    ∃ e, readUnitsU params file k = .error e :=
  mulRead_error h file (fun buf => toUnitsU buf params.unitPl)

theorem readBlocksU_ok {params : PosPara} (hu : params.unitPl < 2 ^ 64) {k : Nat} (h : Reach params.blockPl (k + 1))
    (file : Bytes) {l : List Nat} (hl : ∀ i ∈ l, i < k) : readBlocksU params file l = readBlocks params file l := by
  unfold readBlocksU readBlocks
  refine forEach_congr (fun i hi s => ?_)
  rw [readUnitsU_ok hu (h.piece (Nat.lt_succ_of_lt (hl i hi)))]

theorem beforeIdU_ok {params : PosPara} {k : Nat} (h : Reach params.blockPl (k + 1)) (H : Bytes → Bytes) (file : Bytes) :
    beforeIdU H params file k = .ok (unsealBeforeId H params file k) := by
  unfold beforeIdU unsealBeforeId
  by_cases hk : k ≠ 0
  · rw [if_pos hk, if_pos hk, mulRead_ok (h.piece (by omega)) file (fun buf => pure (H buf))]
    rfl
  · rw [if_neg hk, if_neg hk]
    rfl

theorem seekMul_ok {k len : Nat} (h : k * len < 2 ^ 63) {α : Type} (F : Nat → R α) :
    (mul! k len >>= fun pos => seek! pos >>= fun _ => F pos) = F (k * len) := by
  rw [mul!_ok (lt64 h), bind_ok]
  unfold seek!
  rw [if_pos h, bind_ok]

/-! ### copies -/

theorem forUp_last_error {σ : Type} {f : Nat → σ → R σ} {n : Nat} (h : ∀ s, ∃ e, f n s = .error e) (s : σ) :
    ∃ e, forUp (n + 1) f s = .error e := by
  rw [forUp_succ]
  cases forUp n f s with
  | error e => exact ⟨e, rfl⟩
  | ok t => exact h t

theorem copyAndPadU_eq {dataL unitL : Nat} (h : Reach unitL (dataL / unitL)) (origin : Bytes) :
    copyAndPadU origin dataL unitL = copyAndPad origin dataL unitL := by
  unfold copyAndPadU copyAndPad div!
  by_cases h0 : unitL = 0
  · rw [if_pos h0]
    rfl
  · rw [if_neg h0, bind_ok, bind_ok]
    refine forUp_congr fun k hk s => ?_
    rw [mulRead_ok (h.piece hk) origin (fun buf => pure (s ++ (buf ++ [0])))]

theorem copyAndPadU_error {dataL unitL : Nat} (h : ¬ Reach unitL (dataL / unitL)) (origin : Bytes) :
    ∃ e, copyAndPadU origin dataL unitL = .error e := by
  unfold copyAndPadU div!
  by_cases h0 : unitL = 0
  · rw [if_pos h0]
    exact ⟨_, rfl⟩
  · rw [if_neg h0, bind_ok]
    obtain ⟨m, hm⟩ : ∃ m, dataL / unitL = m + 1 := Nat.exists_eq_succ_of_ne_zero (fun hz => h (Or.inl hz))
    rw [hm] at h ⊢
    exact forUp_last_error (fun s => mulRead_error (fun hh => h (Or.inr hh)) origin _) []

theorem copyAndCompressU_eq {dataL unitL unitPl : Nat} (h : Reach unitPl (dataL / unitL)) (origin : Bytes) :
    copyAndCompressU origin dataL unitL unitPl = copyAndCompress origin dataL unitL unitPl := by
  unfold copyAndCompressU copyAndCompress div!
  by_cases h0 : unitL = 0
  · rw [if_pos h0]
    rfl
  · rw [if_neg h0, bind_ok, bind_ok]
    refine forUp_congr fun k hk s => ?_
    rw [mulRead_ok (h.piece hk) origin]

theorem copyAndCompressU_error {dataL unitL unitPl : Nat} (h : ¬ Reach unitPl (dataL / unitL)) (origin : Bytes) :
    ∃ e, copyAndCompressU origin dataL unitL unitPl = .error e := by
  unfold copyAndCompressU div!
  by_cases h0 : unitL = 0
  · rw [if_pos h0]
    exact ⟨_, rfl⟩
  · rw [if_neg h0, bind_ok]
    obtain ⟨m, hm⟩ : ∃ m, dataL / unitL = m + 1 := Nat.exists_eq_succ_of_ne_zero (fun hz => h (Or.inl hz))
    rw [hm] at h ⊢
    exact forUp_last_error (fun s => mulRead_error (fun hh => h (Or.inr hh)) origin _) []

/-- From "equal within reach, a panic beyond" to the set of successful results. -/
theorem iff_of_reach {α : Type} {P : Prop} {u v : R α} (h1 : P → u = v) (h2 : ¬ P → ∃ e, u = .error e) (a : α) :
    u = .ok a ↔ v = .ok a ∧ P := by
  by_cases h : P
  · rw [h1 h]; exact ⟨fun hh => ⟨hh, h⟩, fun hh => hh.1⟩
  · obtain ⟨e, he⟩ := h2 h
    rw [he]
    exact ⟨fun hh => (by cases hh), fun hh => absurd hh.2 h⟩

/-- Copying with 64-bit positions succeeds exactly when it does with unlimited ones and the last unit starts
below 2^63; the new file is the same. -/
theorem C116_pad (origin : Bytes) (dataL unitL : Nat) (new : Bytes) :
    copyAndPadU origin dataL unitL = .ok new ↔ copyAndPad origin dataL unitL = .ok new ∧ Reach unitL (dataL / unitL) :=
  iff_of_reach (fun h => copyAndPadU_eq h origin) (fun h => copyAndPadU_error h origin) new

theorem C116_compress (origin : Bytes) (dataL unitL unitPl : Nat) (new : Bytes) :
    copyAndCompressU origin dataL unitL unitPl = .ok new ↔
      copyAndCompress origin dataL unitL unitPl = .ok new ∧ Reach unitPl (dataL / unitL) :=
  iff_of_reach (fun h => copyAndCompressU_eq h origin) (fun h => copyAndCompressU_error h origin) new

/-! ### sealing and unsealing -/

theorem sealDependBlocks_split (H : Bytes → Bytes) (params : PosPara) (n : Nat) (L : List (List Nat)) (file : Bytes)
    (ids : List Bytes) (k : Nat) : sealDependBlocks H params n L file ids k =
      (sealLongIdxs H params n L ids k >>= readBlocks params file) := by
  unfold sealDependBlocks sealLongIdxs
  by_cases hm : params.modeL = 0
  · simp only [if_pos hm]
  · simp only [if_neg hm]

theorem sealLongIdxs_lt {H : Bytes → Bytes} {params : PosPara} {n : Nat} {L : List (List Nat)} (hL : LongOk L)
    {ids : List Bytes} {k : Nat} {l : List Nat} (h : sealLongIdxs H params n L ids k = .ok l) : ∀ i ∈ l, i < k := by
  unfold sealLongIdxs at h
  by_cases hm : params.modeL = 0
  · rw [if_pos hm] at h
    by_cases hk : k = 0
    · rw [if_pos hk] at h
      cases h
      simp
    · rw [if_neg hk, bind_eq_ok] at h
      obtain ⟨b, -, h⟩ := h
      by_cases hc : params.cntL = 0
      · rw [if_pos hc] at h
        exact (longModeRandom_spec h).2.2.1
      · rw [if_neg hc] at h
        exact (longModeRandom_spec h).2.2.1
  · rw [if_neg hm] at h
    exact hL k l (at!_eq_ok.mp h)

theorem sealBlockU_ok {H : Bytes → Bytes} {params : PosPara} (hu : params.unitPl < 2 ^ 64) {k : Nat}
    (h : Reach params.blockPl (k + 1)) (key : Int) (iv : Bytes) (n : Nat) {L : List (List Nat)} (hL : LongOk L)
    (S : List (List Nat)) (s : SealState) :
    sealBlockU H params key iv n L S k s = sealBlock H params key iv n L S k s := by
  have hk := h.piece (Nat.lt_succ_self k)
  unfold sealBlockU sealBlock
  rw [readUnitsU_ok hu hk, sealDependBlocks_split]
  congr 1
  funext b
  rw [bind_assoc]
  cases hs : sealLongIdxs H params n L s.ids k with
  | error e => rfl
  | ok l =>
    rw [bind_ok, bind_ok, readBlocksU_ok hu h _ (sealLongIdxs_lt hL hs)]
    congr 1
    funext d
    congr 1
    funext r
    congr 1
    funext out
    congr 1
    funext ids
    rw [seekMul_ok hk.2]

theorem sealFileU_eq {params : PosPara} (hu : params.unitPl < 2 ^ 64)
    (h : Reach params.blockPl (params.dataL / params.blockL)) (H : Bytes → Bytes) (file : Bytes) (key : Int) (iv : Bytes) :
    sealFileU H params file key iv = sealFile H params file key iv := by
  unfold sealFileU sealFile sealPrefix div!
  by_cases h0 : params.blockL = 0
  · rw [if_pos h0]
    rfl
  · rw [if_neg h0, bind_ok, bind_ok, bind_ok]
    cases hL : idxsLOf params (params.dataL / params.blockL) with
    | error e => rfl
    | ok L =>
      rw [bind_ok, bind_ok]
      congr 1
      funext S
      exact forUp_congr fun k hk s => sealBlockU_ok hu (h.mono hk) key iv _ (idxsLOf_longOk hL) S s

theorem sealFileU_error {params : PosPara} (h : ¬ Reach params.blockPl (params.dataL / params.blockL))
    (H : Bytes → Bytes) (file : Bytes) (key : Int) (iv : Bytes) : ∃ e, sealFileU H params file key iv = .error e := by
  unfold sealFileU div!
  by_cases h0 : params.blockL = 0
  · rw [if_pos h0]
    exact ⟨_, rfl⟩
  · rw [if_neg h0, bind_ok]
    cases hL : idxsLOf params (params.dataL / params.blockL) with
    | error e => exact ⟨e, rfl⟩
    | ok L =>
      cases hS : idxsSOf params (params.dataL / params.blockL) with
      | error e => exact ⟨e, rfl⟩
      | ok S =>
        rw [bind_ok, bind_ok]
        obtain ⟨m, hm⟩ : ∃ m, params.dataL / params.blockL = m + 1 :=
          Nat.exists_eq_succ_of_ne_zero (fun hz => h (Or.inl hz))
        rw [hm] at h ⊢
        refine forUp_last_error (fun s => ?_) _
        obtain ⟨e, he⟩ := readUnitsU_error (params := params) (fun hh => h (Or.inr hh)) s.file
        exact ⟨e, by show sealBlockU _ _ _ _ _ _ _ _ _ = _; unfold sealBlockU; rw [Nat.add_sub_cancel] at he; rw [he]; rfl⟩

/-- Sealing with 64-bit positions succeeds exactly when it does with unlimited ones and the last block starts
below 2^63 (and a block can be allocated); the result is the same. -/
theorem C116_seal {params : PosPara} (hu : params.unitPl < 2 ^ 64) (H : Bytes → Bytes) (file : Bytes) (key : Int)
    (iv : Bytes) (st : SealState) :
    sealFileU H params file key iv = .ok st ↔
      sealFile H params file key iv = .ok st ∧ Reach params.blockPl (params.dataL / params.blockL) :=
  iff_of_reach (fun h => sealFileU_eq hu h H file key iv) (fun h => sealFileU_error h H file key iv) st

theorem length_le_of_lt {l : List Nat} {n : Nat} (hd : l.Nodup) (h : ∀ i ∈ l, i < n) : l.length ≤ n := by
  have : l.Subperm (List.range n) := hd.subperm (fun i hi => List.mem_range.mpr (h i hi))
  simpa using this.length_le

theorem longDepend_length {index count mode : Nat} {l : List Nat} (h : longDepend index count mode = .ok l) :
    l.length ≤ index := by
  have h2 : ∀ c, longMode2 index c = .ok l → l.length ≤ index := by
    intro c hc
    rcases Nat.lt_or_ge 64 c with h | h
    · rw [longMode2_error index c h] at hc; cases hc
    · rw [longMode2_eq index c h] at hc
      cases hc
      rw [List.length_map]
      refine length_le_of_lt (List.nodup_range.filter _) fun i hi => ?_
      have := (List.mem_filter.mp hi).2
      exact Nat.lt_trans Nat.lt_two_pow_self (by simpa using this)
  unfold longDepend at h
  by_cases m1 : mode = 1
  · rw [if_pos m1, longMode1_eq] at h
    cases h
    rw [List.length_map]
    refine length_le_of_lt (List.nodup_range.filter _) fun i hi => ?_
    have := (List.mem_filter.mp hi).2
    simp only [decide_eq_true_eq] at this
    omega
  · rw [if_neg m1] at h
    by_cases m2 : mode = 2
    · rw [if_pos m2] at h
      exact h2 _ h
    · rw [if_neg m2] at h
      by_cases m3 : mode = 3
      · rw [if_pos m3, longMode3_eq] at h
        exact h2 _ h
      · rw [if_neg m3] at h
        cases h
        simp

/-- In a static table of long dependencies no row is longer than its index. -/
def RowsShort (L : List (List Nat)) : Prop := ∀ (i : Nat) (l : List Nat), L[i]? = some l → l.length ≤ i

theorem idxsLOf_rowsShort {params : PosPara} {n : Nat} {t : List (List Nat)} (h : idxsLOf params n = .ok t) :
    RowsShort t := by
  unfold idxsLOf at h
  split at h
  · obtain ⟨-, hs⟩ := table_spec h
    intro i l hl
    obtain ⟨hi, rfl⟩ := List.getElem?_eq_some_iff.mp hl
    exact longDepend_length (hs i hi)
  · cases h
    intro i l hl
    simp at hl

theorem unsealLongIdxs_lt {H : Bytes → Bytes} {params : PosPara} {n : Nat} {L : List (List Nat)} (hL : RowsShort L)
    {id : Bytes} {k : Nat} {l : List Nat} (h : unsealLongIdxs H params n L id k = .ok l) : ∀ i ∈ l, i < k := by
  unfold unsealLongIdxs at h
  by_cases hm : params.modeL = 0
  · rw [if_pos hm] at h
    by_cases hk : k = 0
    · rw [if_pos hk] at h
      cases h
      simp
    · rw [if_neg hk] at h
      by_cases hc : params.cntL = 0
      · rw [if_pos hc] at h
        exact (longModeRandom_spec h).2.2.1
      · rw [if_neg hc] at h
        exact (longModeRandom_spec h).2.2.1
  · rw [if_neg hm, bind_eq_ok] at h
    obtain ⟨row, hr, h⟩ := h
    cases h
    intro i hi
    exact Nat.lt_of_lt_of_le (List.mem_range.mp hi) (hL k row (at!_eq_ok.mp hr))

theorem unsealDependBlocks_split (H : Bytes → Bytes) (params : PosPara) (n : Nat) (L : List (List Nat)) (f : Bytes)
    (id : Bytes) (k : Nat) : unsealDependBlocks H params n L f id k =
      (unsealLongIdxs H params n L id k >>= readBlocks params f) := by
  unfold unsealDependBlocks unsealLongIdxs
  have hr : ∀ cur : List Nat, forUp cur.length (fun i res => do
        let c ← at! cur i
        let buf := readFile f (c * params.blockPl) params.blockPl
        let ans ← toUnits buf params.unitPl
        pure (res ++ [ans])) [] = readBlocks params f cur := fun cur =>
    forUp_at_eq_forEach cur (fun c res => do
      let ans ← toUnits (readFile f (c * params.blockPl) params.blockPl) params.unitPl
      pure (res ++ [ans])) []
  by_cases hm : params.modeL = 0
  · simp only [if_pos hm, hr]
  · simp only [if_neg hm]
    cases at! L k with
    | error _ => rfl
    | ok cur =>
      rw [bind_ok, bind_ok, pure_eq_ok, bind_ok, ← hr, List.length_range]
      refine forUp_congr fun i hi s => ?_
      rw [at!_of_lt (by simpa using hi), bind_ok, List.getElem_range]

theorem unsealBlockU_ok {H : Bytes → Bytes} {params : PosPara} (hu : params.unitPl < 2 ^ 64) {k : Nat}
    (h : Reach params.blockPl (k + 1)) (key : Int) (iv : Bytes) (n : Nat) {L : List (List Nat)} (hL : RowsShort L)
    (S : List (List Nat)) (f : Bytes) :
    unsealBlockU H params key iv n L S k f = unsealBlock H params key iv n L S k f := by
  have hk := h.piece (Nat.lt_succ_self k)
  unfold unsealBlockU unsealBlock
  rw [beforeIdU_ok h, bind_ok, readUnitsU_ok hu hk]
  simp only [unsealDependBlocks_split]
  congr 1
  funext b
  rw [bind_assoc]
  cases hs : unsealLongIdxs H params n L (unsealBeforeId H params f k) k with
  | error e => rfl
  | ok l =>
    rw [bind_ok, bind_ok, readBlocksU_ok hu h _ (unsealLongIdxs_lt hL hs)]
    congr 1
    funext d
    congr 1
    funext r
    congr 1
    funext out
    rw [seekMul_ok hk.2]

theorem unsealFileU_eq {params : PosPara} (hu : params.unitPl < 2 ^ 64)
    (h : Reach params.blockPl (params.dataL / params.blockL)) (H : Bytes → Bytes) (file : Bytes) (key : Int) (iv : Bytes) :
    unsealFileU H params file key iv = unsealFile H params file key iv := by
  unfold unsealFileU unsealFile unsealFrom div!
  by_cases h0 : params.blockL = 0
  · rw [if_pos h0]
    rfl
  · rw [if_neg h0, bind_ok, bind_ok, bind_ok]
    cases hL : idxsLOf params (params.dataL / params.blockL) with
    | error e => rfl
    | ok L =>
      rw [bind_ok, bind_ok]
      congr 1
      funext S
      refine forUp_congr fun i hi f => ?_
      rw [sub!_of_le (by omega), bind_ok, bind_ok, sub!_of_le (by omega), bind_ok, bind_ok]
      exact unsealBlockU_ok hu (h.mono (by omega)) key iv _ (idxsLOf_rowsShort hL) S f

theorem unsealFileU_error {params : PosPara} (h : ¬ Reach params.blockPl (params.dataL / params.blockL))
    (H : Bytes → Bytes) (file : Bytes) (key : Int) (iv : Bytes) : ∃ e, unsealFileU H params file key iv = .error e := by
  unfold unsealFileU div!
  by_cases h0 : params.blockL = 0
  · rw [if_pos h0]
    exact ⟨_, rfl⟩
  · rw [if_neg h0, bind_ok]
    cases hL : idxsLOf params (params.dataL / params.blockL) with
    | error e => exact ⟨e, rfl⟩
    | ok L =>
      cases hS : idxsSOf params (params.dataL / params.blockL) with
      | error e => exact ⟨e, rfl⟩
      | ok S =>
        rw [bind_ok, bind_ok]
        obtain ⟨m, hm⟩ : ∃ m, params.dataL / params.blockL = m + 1 :=
          Nat.exists_eq_succ_of_ne_zero (fun hz => h (Or.inl hz))
        rw [hm] at h ⊢
        rw [forUp_succ', sub!_of_le (by omega), bind_ok, sub!_of_le (by omega), bind_ok]
        obtain ⟨e, he⟩ := readUnitsU_error (params := params) (fun hh => h (Or.inr hh)) file
        rw [Nat.add_sub_cancel] at he
        unfold unsealBlockU
        rw [Nat.add_sub_cancel, Nat.sub_zero, he]
        cases beforeIdU H params file m with
        | error e' => exact ⟨e', rfl⟩
        | ok id => exact ⟨e, rfl⟩

theorem C116_unseal {params : PosPara} (hu : params.unitPl < 2 ^ 64) (H : Bytes → Bytes) (file : Bytes) (key : Int)
    (iv : Bytes) (out : Bytes) :
    unsealFileU H params file key iv = .ok out ↔
      unsealFile H params file key iv = .ok out ∧ Reach params.blockPl (params.dataL / params.blockL) :=
  iff_of_reach (fun h => unsealFileU_eq hu h H file key iv) (fun h => unsealFileU_error h H file key iv) out

/-! ### preparation of challenged blocks -/

theorem prepareDependU_ok {params : PosPara} (hu : params.unitPl < 2 ^ 64) {k : Nat} (h : Reach params.blockPl (k + 1))
    (H : Bytes → Bytes) (file : Bytes) (n : Nat) {L : List (List Nat)} (hL : LongOk L) (id : Bytes) :
    prepareDependU H params file n L id k =
      (if params.modeL = 0 then do
        let cur ←
         (if k = 0 then pure []
          else
            if params.cntL = 0 then longModeRandom H n id k (k / 10 + 1)
            else longModeRandom H n id k params.cntL : R (List Nat))
        readBlocks params file cur
      else do
        let cur ← at! L k
        readBlocks params file cur : R (List (List Bytes))) := by
  unfold prepareDependU
  have hr : ∀ c : R (List Nat), (∀ l, c = .ok l → ∀ i ∈ l, i < k) →
      (c >>= readBlocksU params file) = (c >>= readBlocks params file) := by
    intro c hc
    cases hcc : c with
    | error e => rfl
    | ok l => rw [bind_ok, bind_ok, readBlocksU_ok hu h file (hc l hcc)]
  by_cases hm : params.modeL = 0
  · simp only [if_pos hm]
    refine hr _ fun l hl => ?_
    by_cases hk : k = 0
    · rw [if_pos hk] at hl
      cases hl
      simp
    · rw [if_neg hk] at hl
      by_cases hc : params.cntL = 0
      · rw [if_pos hc] at hl
        exact (longModeRandom_spec hl).2.2.1
      · rw [if_neg hc] at hl
        exact (longModeRandom_spec hl).2.2.1
  · simp only [if_neg hm]
    exact hr _ fun l hl => hL k l (at!_eq_ok.mp hl)

theorem singleUnsealPrepareU_eq {params : PosPara} (hu : params.unitPl < 2 ^ 64) {k : Nat}
    (h : Reach params.blockPl (k + 1)) (H : Bytes → Bytes) (file : Bytes) :
    singleUnsealPrepareU H params file k = singleUnsealPrepare H params file k := by
  unfold singleUnsealPrepareU singleUnsealPrepare
  rw [readUnitsU_ok hu (h.piece (Nat.lt_succ_self k))]
  simp only []
  congr 1
  funext b
  congr 1
  funext n
  cases hL : idxsLOf params n with
  | error e => rfl
  | ok L =>
    rw [bind_ok, bind_ok, beforeIdU_ok h, bind_ok, prepareDependU_ok hu h H file n (idxsLOf_longOk hL)]
    rfl

theorem singleUnsealPrepareU_error {params : PosPara} {k : Nat} (h : ¬ Reach params.blockPl (k + 1)) (H : Bytes → Bytes)
    (file : Bytes) : ∃ e, singleUnsealPrepareU H params file k = .error e := by
  obtain ⟨e, he⟩ := readUnitsU_error (params := params) (k := k) (fun hh => h (Or.inr hh)) file
  exact ⟨e, by unfold singleUnsealPrepareU; rw [he]; rfl⟩

/-- Preparing one block, of any index: with 64-bit positions it succeeds exactly when it does with unlimited ones
and the block starts below 2^63. -/
theorem C116_prepare {params : PosPara} (hu : params.unitPl < 2 ^ 64) (H : Bytes → Bytes) (sealed : Bytes) (k : Nat)
    (pr : Prepared) :
    singleUnsealPrepareU H params sealed k = .ok pr ↔
      singleUnsealPrepare H params sealed k = .ok pr ∧ Reach params.blockPl (k + 1) :=
  iff_of_reach (fun h => singleUnsealPrepareU_eq hu h H sealed) (fun h => singleUnsealPrepareU_error h H sealed) pr

theorem blocksIdxLoop_length {bp b e : Nat} (fuel : Nat) : ∀ (i : Nat) (acc l : List Nat),
    blocksIdxLoop bp b e fuel i acc = .ok l → acc.length ≤ l.length := by
  induction fuel with
  | zero => intro i acc l h; cases h; exact le_rfl
  | succ fuel ih =>
    intro i acc l h
    unfold blocksIdxLoop at h
    by_cases hc : i * bp + b < e
    · rw [if_pos hc, bind_eq_ok] at h
      obtain ⟨q, -, h⟩ := h
      have := ih _ _ _ h
      simp only [List.length_append, List.length_singleton] at this
      omega
    · rw [if_neg hc] at h
      cases h
      exact le_rfl

theorem blocksIdxLoopU_iff {bp b e : Nat} (fuel : Nat) : ∀ (i : Nat) (acc l : List Nat), e - (i * bp + b) < fuel →
    (blocksIdxLoopU bp b e fuel i acc = .ok l ↔
      blocksIdxLoop bp b e fuel i acc = .ok l ∧ (i + (l.length - acc.length)) * bp + b < 2 ^ 64) := by
  induction fuel with
  | zero => intro i acc l hf; omega
  | succ fuel ih =>
    intro i acc l hf
    unfold blocksIdxLoopU blocksIdxLoop
    by_cases hfit : i * bp + b < 2 ^ 64
    · rw [mul!_ok (Nat.lt_of_le_of_lt (Nat.le_add_right _ _) hfit), bind_ok, add!_ok hfit, bind_ok]
      by_cases hc : i * bp + b < e
      · rw [if_pos hc, if_pos hc]
        unfold div!
        by_cases h0 : bp = 0
        · rw [if_pos h0]
          exact ⟨fun h => (by cases h), fun h => (by cases h.1)⟩
        · rw [if_neg h0, bind_ok, bind_ok]
          have hq : i + b / bp ≤ i * bp + b :=
            Nat.add_le_add (Nat.le_mul_of_pos_right _ (Nat.pos_of_ne_zero h0)) (Nat.div_le_self _ _)
          rw [add!_ok (Nat.lt_of_le_of_lt hq hfit), bind_ok, ih]
          · refine and_congr_right fun hl => ?_
            have := blocksIdxLoop_length _ _ _ _ hl
            simp only [List.length_append, List.length_singleton] at this ⊢
            rw [show i + 1 + (l.length - (acc.length + 1)) = i + (l.length - acc.length) by omega]
          · rw [Nat.succ_mul]
            omega
      · rw [if_neg hc, if_neg hc]
        refine ⟨fun h => ⟨h, ?_⟩, fun h => h.1⟩
        cases h
        simpa using hfit
    · refine ⟨fun h => ?_, fun ⟨h, hl⟩ => absurd (Nat.lt_of_le_of_lt ?_ hl) hfit⟩
      · unfold mul! add! at h
        by_cases hm : i * bp < 2 ^ 64
        · rw [if_pos hm, bind_ok, if_neg hfit] at h
          cases h
        · rw [if_neg hm] at h
          cases h
      · exact Nat.add_le_add_right (Nat.mul_le_mul_right _ (Nat.le_add_right _ _)) _

/-- The blocks of a range: the sum computed after the last block must stay below 2^64. -/
theorem C116_range_blocks (blockPl begin_ end_ : Nat) (l : List Nat) :
    blocksIdxOfU blockPl begin_ end_ = .ok l ↔
      blocksIdxOf blockPl begin_ end_ = .ok l ∧ l.length * blockPl + begin_ < 2 ^ 64 := by
  unfold blocksIdxOfU blocksIdxOf
  rw [blocksIdxLoopU_iff _ _ _ _ (by omega)]
  simp

theorem forEach_mem_error {α σ : Type} {l : List α} {f : α → σ → R σ} {x : α} (hx : x ∈ l)
    (h : ∀ s, ∃ e, f x s = .error e) (s : σ) : ∃ e, forEach l f s = .error e := by
  induction l generalizing s with
  | nil => simp at hx
  | cons y l ih =>
    rw [forEach_cons]
    rcases List.mem_cons.mp hx with rfl | hx
    · obtain ⟨e, he⟩ := h s
      exact ⟨e, by rw [he, bind_error]⟩
    · cases f y s with
      | error e => exact ⟨e, rfl⟩
      | ok t => exact ih hx t

theorem rangeReads_eq {params : PosPara} (hu : params.unitPl < 2 ^ 64) (sealed : Bytes) {l : List Nat}
    (hl : ∀ k ∈ l, Reach params.blockPl (k + 1)) :
    forEach l (fun idx2 (res : List (List Bytes)) => do
      let ans ← readUnitsU params sealed idx2
      pure (res ++ [ans])) [] =
    forEach l (fun idx2 (res : List (List Bytes)) => do
      let ans ← toUnits (readFile sealed (idx2 * params.blockPl) params.blockPl) params.unitPl
      pure (res ++ [ans])) [] :=
  forEach_congr fun k hk s => by rw [readUnitsU_ok hu ((hl k hk).piece (Nat.lt_succ_self k))]

theorem rangeDepend_eq {params : PosPara} (hu : params.unitPl < 2 ^ 64) (H : Bytes → Bytes) (sealed : Bytes) {l : List Nat}
    (hl : ∀ k ∈ l, Reach params.blockPl (k + 1)) (n : Nat) {L : List (List Nat)} (hL : LongOk L) :
    forEach l (fun idx2 (s : List Bytes × List (List (List Bytes))) => do
      let beforeId ← beforeIdU H params sealed idx2
      let single ← prepareDependU H params sealed n L beforeId idx2
      pure (s.1 ++ [beforeId], s.2 ++ [single])) ([], []) =
    forEach l (fun idx2 (s : List Bytes × List (List (List Bytes))) => do
      let beforeId :=
        if idx2 ≠ 0 then H (readFile sealed ((idx2 - 1) * params.blockPl) params.blockPl) else []
      let single ←
       (if params.modeL = 0 then do
          let cur ←
           (if idx2 = 0 then pure []
            else
              if params.cntL = 0 then longModeRandom H n beforeId idx2 (idx2 / 10 + 1)
              else longModeRandom H n beforeId idx2 params.cntL : R (List Nat))
          readBlocks params sealed cur
        else do
          let cur ← at! L idx2
          readBlocks params sealed cur : R (List (List Bytes)))
      pure (s.1 ++ [beforeId], s.2 ++ [single])) ([], []) :=
  forEach_congr fun k hk s => by
    rw [beforeIdU_ok (hl k hk), bind_ok, prepareDependU_ok hu (hl k hk) H sealed n hL]
    rfl

theorem batchUnsealPrepareU_eq {params : PosPara} (hu : params.unitPl < 2 ^ 64) (H : Bytes → Bytes) (sealed : Bytes)
    {begin_ end_ : Nat} {l : List Nat} (h1 : blocksIdxOf params.blockPl begin_ end_ = .ok l)
    (h2 : l.length * params.blockPl + begin_ < 2 ^ 64) (h3 : ∀ k ∈ l, Reach params.blockPl (k + 1)) :
    batchUnsealPrepareU H params sealed begin_ end_ = batchUnsealPrepare H params sealed begin_ end_ := by
  unfold batchUnsealPrepareU batchUnsealPrepare
  rw [h1, (C116_range_blocks _ _ _ _).mpr ⟨h1, h2⟩, bind_ok, bind_ok, rangeReads_eq hu sealed h3]
  congr 1
  funext bs
  congr 1
  funext n
  cases hL : idxsLOf params n with
  | error e => rfl
  | ok L =>
    rw [bind_ok, bind_ok, rangeDepend_eq hu H sealed h3 n (idxsLOf_longOk hL)]

theorem batchUnsealPrepare_blocksIdx {H : Bytes → Bytes} {params : PosPara} {sealed : Bytes} {begin_ end_ : Nat}
    {r : BatchPrepared} (h : batchUnsealPrepare H params sealed begin_ end_ = .ok r) :
    blocksIdxOf params.blockPl begin_ end_ = .ok r.blocksIdx := by
  unfold batchUnsealPrepare at h
  rw [bind_eq_ok] at h
  obtain ⟨l, hl, h⟩ := h
  rw [bind_eq_ok] at h
  obtain ⟨bs, hbs, h⟩ := h
  rw [bind_eq_ok] at h
  obtain ⟨n, hn, h⟩ := h
  rw [bind_eq_ok] at h
  obtain ⟨L, hL, h⟩ := h
  rw [bind_eq_ok] at h
  obtain ⟨q, hq, h⟩ := h
  cases h
  exact hl

/-- Preparing a range of blocks. -/
theorem C116_range {params : PosPara} (hu : params.unitPl < 2 ^ 64) (H : Bytes → Bytes) (sealed : Bytes)
    (begin_ end_ : Nat) (r : BatchPrepared) :
    batchUnsealPrepareU H params sealed begin_ end_ = .ok r ↔
      batchUnsealPrepare H params sealed begin_ end_ = .ok r ∧
        r.blocksIdx.length * params.blockPl + begin_ < 2 ^ 64 ∧
        ∀ k ∈ r.blocksIdx, Reach params.blockPl (k + 1) := by
  constructor
  · intro h
    unfold batchUnsealPrepareU at h
    rw [bind_eq_ok] at h
    obtain ⟨l, hl, h⟩ := h
    obtain ⟨hl1, hl2⟩ := (C116_range_blocks _ _ _ _).mp hl
    rw [bind_eq_ok] at h
    obtain ⟨bs, hbs, h⟩ := h
    have hreach : ∀ k ∈ l, Reach params.blockPl (k + 1) := by
      intro k hk
      by_contra hn
      obtain ⟨e, he⟩ := forEach_mem_error (f := fun idx2 (res : List (List Bytes)) => do
          let ans ← readUnitsU params sealed idx2
          pure (res ++ [ans])) hk (fun s => by
        obtain ⟨e, he⟩ := readUnitsU_error (params := params) (k := k) (fun hh => hn (Or.inr hh)) sealed
        exact ⟨e, by rw [he]; rfl⟩) []
      rw [he] at hbs
      cases hbs
    rw [bind_eq_ok] at h
    obtain ⟨n, hn, h⟩ := h
    rw [bind_eq_ok] at h
    obtain ⟨L, hL, h⟩ := h
    rw [bind_eq_ok] at h
    obtain ⟨q, hq, h⟩ := h
    cases h
    refine ⟨?_, hl2, hreach⟩
    unfold batchUnsealPrepare
    rw [hl1, bind_ok]
    rw [rangeReads_eq hu sealed hreach] at hbs
    rw [hbs, bind_ok, hn, bind_ok, hL, bind_ok]
    rw [rangeDepend_eq hu H sealed hreach n (idxsLOf_longOk hL)] at hq
    rw [hq]
    rfl
  · rintro ⟨h, h2, h3⟩
    rw [batchUnsealPrepareU_eq hu H sealed (batchUnsealPrepare_blocksIdx h) h2 h3, h]

/-! ### comparison with the origin file -/

theorem batchVerifyU_eq {blockL unitL : Nat} (hu : unitL < 2 ^ 64) {k : Nat} (h : Reach blockL (k + 1)) (origin : Bytes)
    (b : List Bytes) : batchVerifyU origin k b blockL unitL = batchVerify origin k b blockL unitL := by
  have hk := h.piece (Nat.lt_succ_self k)
  unfold batchVerifyU batchVerify
  rw [mulRead_ok hk, toUnitsU_eq (by rw [readFile_length]; exact hk.1.le) hu]

theorem batchVerifyU_error {blockL unitL : Nat} {k : Nat} (h : ¬ Reach blockL (k + 1)) (origin : Bytes)
    (b : List Bytes) : ∃ e, batchVerifyU origin k b blockL unitL = .error e := by
  unfold batchVerifyU
  exact mulRead_error (fun hh => h (Or.inr hh)) origin _

/-- Comparing a block with the origin file, of any index. -/
theorem C116_verify {unitL : Nat} (hu : unitL < 2 ^ 64) (origin : Bytes) (k : Nat) (b : List Bytes) (blockL : Nat) :
    batchVerifyU origin k b blockL unitL = .ok () ↔
      batchVerify origin k b blockL unitL = .ok () ∧ Reach blockL (k + 1) :=
  iff_of_reach (fun h => batchVerifyU_eq hu h origin b) (fun h => batchVerifyU_error h origin b) ()

/-- Unsealing and comparing: every compared block of the origin file must start below 2^63. -/
theorem C116_unseal_verify {params : PosPara} (hu : params.unitL < 2 ^ 64) (H : Bytes → Bytes) (origin : Bytes)
    (blocksIdx : List Nat) (blocks : List (List Bytes)) (beforeIds : List Bytes) (deps : List (List (List Bytes)))
    (key : Int) (iv : Bytes) :
    batchUnsealAndVerifyU H params origin blocksIdx blocks beforeIds deps key iv = .ok () ↔
      batchUnsealAndVerify H params origin blocksIdx blocks beforeIds deps key iv = .ok () ∧
        ∀ i < blocks.length, ∀ k, blocksIdx[i]? = some k → Reach params.blockL (k + 1) := by
  unfold batchUnsealAndVerifyU batchUnsealAndVerify
  cases (if params.modeS ≠ 0 then do
      let n ← div! params.dataL params.blockL
      createShortDepend n params.cntS params.modeS
    else pure [] : R (List (List Nat))) with
  | error e => exact ⟨fun h => (by cases h), fun h => (by cases h.1)⟩
  | ok S =>
    rw [bind_ok, bind_ok, forUp_unit_iff, forUp_unit_iff, ← forall₂_and]
    refine forall₂_congr fun i hi => ?_
    cases hk : at! blocksIdx i with
    | error e => exact ⟨fun h => (by cases h), fun h => (by cases h.1)⟩
    | ok k =>
      rw [bind_ok, bind_ok]
      have hki := at!_eq_ok.mp hk
      have e1 : (∀ k', blocksIdx[i]? = some k' → Reach params.blockL (k' + 1)) ↔ Reach params.blockL (k + 1) :=
        ⟨fun h => h k hki, fun h k' hk' => by rw [hki] at hk'; cases hk'; exact h⟩
      rw [e1]
      cases at! blocks i with
      | error e => exact ⟨fun h => (by cases h), fun h => (by cases h.1)⟩
      | ok cur =>
        rw [bind_ok, bind_ok]
        simp only []
        refine iff_of_reach (fun h => ?_) (fun h => ?_) ()
        · have hp := h.piece (Nat.lt_succ_self k)
          congr 1
          funext c
          rw [mulRead_ok hp, toUnitsU_eq (by rw [readFile_length]; exact hp.1.le) hu]
        · generalize (forUp params.sealRounds _ cur : R (List Bytes)) = x
          cases x with
          | error e => exact ⟨e, rfl⟩
          | ok c => exact mulRead_error (fun hh => h (Or.inr hh)) origin _

/-! ### trees -/

theorem merkleValuesU_ok {leafLen : Nat} (file : Bytes) {l : List Nat} (hl : l ≠ [] → leafLen < 2 ^ 63)
    (h : ∀ i ∈ l, i + leafLen < 2 ^ 63) :
    merkleValuesU file leafLen l = .ok (l.map (fun i => readFile file (i + leafLen) leafLen)) := by
  induction l with
  | nil => rfl
  | cons i l ih =>
    unfold merkleValuesU
    have hi := h i (by simp)
    have hl' := hl (by simp)
    rw [add!_ok (lt64 hi), bind_ok, readFileU_ok hl' hi, bind_ok, ih (fun _ => hl') (fun j hj => h j (by simp [hj]))]
    rfl

theorem merkleValuesU_error {leafLen : Nat} (file : Bytes) {l : List Nat} {i : Nat} (hi : i ∈ l)
    (h : ¬ (leafLen < 2 ^ 63 ∧ i + leafLen < 2 ^ 63)) : ∃ e, merkleValuesU file leafLen l = .error e := by
  induction l with
  | nil => simp at hi
  | cons j l ih =>
    unfold merkleValuesU
    rcases List.mem_cons.mp hi with rfl | hi
    · unfold add!
      by_cases ha : i + leafLen < 2 ^ 64
      · rw [if_pos ha, bind_ok]
        obtain ⟨e, he⟩ := readFileU_error h file
        exact ⟨e, by rw [he]; rfl⟩
      · rw [if_neg ha]
        exact ⟨_, rfl⟩
    · obtain ⟨e, he⟩ := ih hi
      rw [he]
      cases add! j leafLen with
      | error e' => exact ⟨e', rfl⟩
      | ok p =>
        rw [bind_ok]
        cases readFileU file p leafLen with
        | error e' => exact ⟨e', rfl⟩
        | ok v => exact ⟨e, rfl⟩

/-- The number of leaves of the tree of a file. -/
def leafCount (dataLen leafLen : Nat) : Nat := (dataLen + leafLen - 1) / leafLen

theorem generateMerkleTreeFromFileU_eq {dataLen leafLen : Nat} (h : Reach leafLen (leafCount dataLen leafLen + 1))
    (H : Bytes → Bytes) (file : Bytes) :
    generateMerkleTreeFromFileU H file dataLen leafLen = generateMerkleTreeFromFile H file dataLen leafLen := by
  unfold generateMerkleTreeFromFileU generateMerkleTreeFromFile
  by_cases h0 : leafLen = 0
  · rw [if_pos h0, if_pos h0]
  · rw [if_neg h0, if_neg h0, merkleValuesU_ok file (fun _ => (h.piece (Nat.succ_pos _)).1)]
    · rw [bind_ok]
      rfl
    · intro i hi
      rw [stepBy_eq (Nat.pos_of_ne_zero h0) _ _ _ (by omega)] at hi
      simp only [List.mem_map, List.mem_range, Nat.sub_zero, Nat.zero_add] at hi
      obtain ⟨j, hj, rfl⟩ := hi
      rw [← Nat.succ_mul]
      exact (h.piece (k := j + 1) (Nat.succ_lt_succ hj)).2

theorem generateMerkleTreeFromFileU_error {dataLen leafLen : Nat} (hd : dataLen ≠ 0)
    (h : ¬ Reach leafLen (leafCount dataLen leafLen + 1)) (H : Bytes → Bytes) (file : Bytes) :
    ∃ e, generateMerkleTreeFromFileU H file dataLen leafLen = .error e := by
  unfold generateMerkleTreeFromFileU
  by_cases h0 : leafLen = 0
  · rw [if_pos h0]
    exact ⟨_, rfl⟩
  · rw [if_neg h0]
    have hpos := Nat.pos_of_ne_zero h0
    have hc : 0 < leafCount dataLen leafLen := Nat.div_pos (by omega) hpos
    obtain ⟨e, he⟩ := merkleValuesU_error (leafLen := leafLen) (l := stepBy dataLen 0 dataLen leafLen)
      (i := (leafCount dataLen leafLen - 1) * leafLen) file (by
        rw [stepBy_eq hpos _ _ _ (by omega)]
        simp only [List.mem_map, List.mem_range, Nat.sub_zero, Nat.zero_add]
        exact ⟨leafCount dataLen leafLen - 1, by unfold leafCount at hc ⊢; omega, rfl⟩) (fun hh => h (Or.inr (by
        rw [← Nat.succ_mul, Nat.succ_eq_add_one, Nat.sub_add_cancel hc] at hh
        exact hh)))
    exact ⟨e, by rw [he]; rfl⟩

/-- The tree of a file: the reads go up to one leaf beyond the data. -/
theorem C116_tree (H : Bytes → Bytes) (file : Bytes) {dataLen : Nat} (hd : dataLen ≠ 0) (leafLen : Nat)
    (t : List Bytes × MerkleTree × Bytes) :
    generateMerkleTreeFromFileU H file dataLen leafLen = .ok t ↔
      generateMerkleTreeFromFile H file dataLen leafLen = .ok t ∧ Reach leafLen (leafCount dataLen leafLen + 1) :=
  iff_of_reach (fun h => generateMerkleTreeFromFileU_eq h H file)
    (fun h => generateMerkleTreeFromFileU_error hd h H file) t

/-! ### whole runs -/

/-- Sizes for which no position of a run leaves the 64-bit limits: the data with one block more, the padded data,
ten blocks, and the unit in bits. -/
structure SizesFit (params : PosPara) : Prop where
  unit : params.unitPl * 8 < 2 ^ 64
  data : params.dataL + params.blockL < 2 ^ 63
  units : params.dataL / params.unitL * params.unitPl < 2 ^ 63
  blocks : params.dataL / params.blockL * params.blockPl < 2 ^ 63
  ten : 10 * params.blockPl < 2 ^ 63
  tenL : 10 * params.blockL < 2 ^ 63
  unitL : params.unitL < 2 ^ 64

theorem SizesFit.shipped (l : Nat) : SizesFit (genPosdata l) := by
  unfold genPosdata
  split
  · constructor <;> norm_num
  · split
    · constructor <;> norm_num
    · split
      · constructor <;> norm_num
      · constructor <;> norm_num

section runs
variable {params : PosPara} (fit : SizesFit params)
include fit

theorem SizesFit.unit64 : params.unitPl < 2 ^ 64 := Nat.lt_of_le_of_lt (Nat.le_mul_of_pos_right _ (by norm_num)) fit.unit

theorem SizesFit.pad : Reach params.unitL (params.dataL / params.unitL) :=
  reach_of_lt (Nat.lt_of_le_of_lt (Nat.div_mul_le_self _ _) (Nat.lt_of_le_of_lt (Nat.le_add_right _ _) fit.data))

theorem SizesFit.origin : Reach params.blockL (params.dataL / params.blockL) :=
  reach_of_lt (Nat.lt_of_le_of_lt (Nat.div_mul_le_self _ _) (Nat.lt_of_le_of_lt (Nat.le_add_right _ _) fit.data))

theorem SizesFit.leaves : Reach params.blockL (leafCount params.dataL params.blockL + 1) := by
  refine Or.inr ⟨Nat.lt_of_le_of_lt (Nat.le_add_left _ _) fit.data, ?_⟩
  rw [Nat.add_sub_cancel]
  exact Nat.lt_of_le_of_lt (Nat.le_trans (Nat.div_mul_le_self _ _) (Nat.sub_le _ _)) fit.data

theorem prepareParamsU_eq (rng : Nat → UInt8) : prepareParamsU params.unitPl rng = .ok (prepareParams params.unitPl rng) := by
  unfold prepareParamsU
  rw [mul!_ok fit.unit]
  rfl

theorem sealAndUnsealU_eq (H : Bytes → Bytes) (d : Disk) (rng : Nat → UInt8) (b : Bool) :
    sealAndUnsealU H params d rng b = sealAndUnseal H params d rng b := by
  unfold sealAndUnsealU sealAndUnseal
  simp only [copyAndPadU_eq fit.pad, prepareParamsU_eq fit, bind_ok, sealFileU_eq fit.unit64 (reach_of_lt fit.blocks),
    unsealFileU_eq fit.unit64 (reach_of_lt fit.blocks), copyAndCompressU_eq (reach_of_lt fit.units)]

theorem merkleTreeProofU_eq (Hs : Bytes → Bytes) (origin unsealed : Bytes) (count : Nat) (draw : Nat → Nat) (fuel : Nat) :
    merkleTreeProofU Hs origin unsealed params.dataL params.blockL count draw fuel =
      merkleTreeProof Hs origin unsealed params.dataL params.blockL count draw fuel := by
  unfold merkleTreeProofU merkleTreeProof
  simp only [generateMerkleTreeFromFileU_eq fit.leaves]
  rfl

theorem unsealSingleAndVerifyU_eq (H : Bytes → Bytes) (d : Disk) (par : Nat) (sched : List Nat) :
    unsealSingleAndVerifyU H params d par sched = unsealSingleAndVerify H params d par sched := by
  obtain ⟨l, hl, hlen, hlt⟩ : ∃ l, blocksIdxOf params.blockPl (0 * params.blockPl) (10 * params.blockPl) = .ok l ∧
      l.length * params.blockPl + 0 * params.blockPl < 2 ^ 64 ∧ ∀ k ∈ l, k < 10 := by
    rcases Nat.eq_zero_or_pos params.blockPl with h0 | h0
    · refine ⟨[], ?_, ?_, by simp⟩
      · rw [h0]; rfl
      · rw [h0]; norm_num
    · refine ⟨_, blocksIdxOf_eq h0, ?_, ?_⟩
      · rw [List.length_map, List.length_range, Nat.zero_mul, Nat.sub_zero, Nat.add_zero]
        refine Nat.lt_of_le_of_lt (Nat.div_mul_le_self _ _) ?_
        have := fit.ten
        have e : (2 : Nat) ^ 64 = 2 ^ 63 + 2 ^ 63 := by norm_num
        omega
      · intro k hk
        rw [List.mem_map] at hk
        obtain ⟨j, hj, rfl⟩ := hk
        rw [List.mem_range, Nat.zero_mul, Nat.sub_zero] at hj
        rw [Nat.zero_mul, Nat.zero_div, Nat.add_zero]
        have := (Nat.div_le_iff_le_mul_add_pred h0 (a := 10 * params.blockPl + params.blockPl - 1) (c := 10)).mpr
          (by rw [Nat.mul_comm params.blockPl 10]; omega)
        omega
  have hr : ∀ k ∈ l, Reach params.blockPl (k + 1) := fun k hk => (reach_of_lt fit.ten).mono (hlt k hk)
  have hrL : ∀ k ∈ l, Reach params.blockL (k + 1) := fun k hk => (reach_of_lt fit.tenL).mono (hlt k hk)
  unfold unsealSingleAndVerifyU unsealSingleAndVerify
  rw [mul!_ok (lt64 fit.ten), mul!_ok (by rw [Nat.zero_mul]; norm_num)]
  simp only [bind_ok, batchUnsealPrepareU_eq fit.unit64 H _ hl hlen hr]
  congr 1
  funext pub
  congr 1
  funext kv
  congr 1
  funext sealed
  cases hbp : batchUnsealPrepare H params sealed (0 * params.blockPl) (10 * params.blockPl) with
  | error e => rfl
  | ok bp =>
    have hbl : bp.blocksIdx = l := by
      have := batchUnsealPrepare_blocksIdx hbp
      rw [hl] at this
      cases this
      rfl
    have hv : ∀ out : List (List Bytes), forUp bp.blocksIdx.length (fun i _ => do
          let k ← at! bp.blocksIdx i
          let b ← at! out i
          let origin ← openFile d.origin
          batchVerifyU origin k b params.blockL params.unitL) () =
        forUp bp.blocksIdx.length (fun i _ => do
          let k ← at! bp.blocksIdx i
          let b ← at! out i
          let origin ← openFile d.origin
          batchVerify origin k b params.blockL params.unitL) () := by
      intro out
      refine forUp_congr fun i hi _ => ?_
      cases hk : at! bp.blocksIdx i with
      | error e => rfl
      | ok k =>
        have : k ∈ l := hbl ▸ List.mem_of_getElem? (at!_eq_ok.mp hk)
        simp only [bind_ok, batchVerifyU_eq fit.unitL (hrL k this)]
    rw [bind_ok, bind_ok]
    simp only [hv]
    rfl

theorem testPostorageU_eq (H Hs : Bytes → Bytes) (flags : Flags) (par : Nat) (ch : RunChoices) (d : Disk) :
    testPostorageU H Hs params flags par ch d = testPostorage H Hs params flags par ch d := by
  unfold testPostorageU testPostorage
  simp only [sealAndUnsealU_eq fit, unsealSingleAndVerifyU_eq fit, merkleTreeProofU_eq fit]
  rfl

theorem proverRespondU_eq (H : Bytes → Bytes) (sealed : Bytes) (tree : MerkleTree) (r : UInt8) {indices : List Nat}
    (hi : ∀ k ∈ indices, k < params.dataL / params.blockL) :
    proverRespondU H params sealed tree r indices = proverRespond H params sealed tree r indices := by
  unfold proverRespondU proverRespond
  congr 1
  refine forEach_congr fun k hk s => ?_
  rw [singleUnsealPrepareU_eq fit.unit64 ((reach_of_lt fit.blocks).mono (hi k hk))]

theorem verifierCheckU_eq (H Hs : Bytes → Bytes) (origin pubdata : Bytes) (leaves : List Bytes) (root : Bytes) (r : UInt8)
    {indices : List Nat} (hi : ∀ k ∈ indices, k < params.dataL / params.blockL) (resp : Response) (par : Nat)
    (sched : List Nat) :
    verifierCheckU H Hs params origin pubdata leaves root r indices resp par sched =
      verifierCheck H Hs params origin pubdata leaves root r indices resp par sched := by
  have hv : ∀ out : List (List Bytes), forUp indices.length (fun i _ => do
        let k ← at! indices i
        let b ← at! out i
        batchVerifyU origin k b params.blockL params.unitL) () =
      forUp indices.length (fun i _ => do
        let k ← at! indices i
        let b ← at! out i
        batchVerify origin k b params.blockL params.unitL) () := by
    intro out
    refine forUp_congr fun i _ _ => ?_
    cases hk : at! indices i with
    | error e => rfl
    | ok k =>
      have : k ∈ indices := List.mem_of_getElem? (at!_eq_ok.mp hk)
      simp only [bind_ok, batchVerifyU_eq fit.unitL (fit.origin.mono (hi k this))]
  unfold verifierCheckU verifierCheck
  simp only [hv]
  rfl

theorem challengeRoundU_eq (H Hs : Bytes → Bytes) (origin sealed pubdata : Bytes) (leaves : List Bytes) (tree : MerkleTree)
    (root : Bytes) (count par : Nat) (ch : RoundChoices) :
    challengeRoundU H Hs params origin sealed pubdata leaves tree root count par ch =
      challengeRound H Hs params origin sealed pubdata leaves tree root count par ch := by
  unfold challengeRoundU challengeRound
  cases hn : div! params.dataL params.blockL with
  | error e => rfl
  | ok n =>
    rw [bind_ok, bind_ok]
    cases hc : createChallenges ch.draw count 0 n ch.fuel with
    | error e => rfl
    | ok chosen =>
      rw [bind_ok, bind_ok]
      cases chosen with
      | none => rfl
      | some indices =>
        have hne : n = params.dataL / params.blockL := by
          unfold div! at hn
          split at hn
          · cases hn
          · cases hn
            rfl
        have hi : ∀ k ∈ indices, k < params.dataL / params.blockL := fun k hk =>
          hne ▸ ((C24_sorted_distinct _ _ _ _ _ _ hc).2.2 k hk).2
        simp only [proverRespondU_eq fit H sealed tree ch.r hi]
        congr 1
        funext resp
        exact verifierCheckU_eq fit H Hs origin pubdata leaves root ch.r hi resp par ch.sched

theorem pipelineU_eq (H Hs : Bytes → Bytes) (origin old : Bytes) (rng : Nat → UInt8) (count par : Nat)
    (choices : List RoundChoices) :
    pipelineU H Hs params origin old rng count par choices = pipeline H Hs params origin old rng count par choices := by
  unfold pipelineU pipeline
  have : ∀ (sealed pub : Bytes) (leaves : List Bytes) (tree : MerkleTree) (root : Bytes),
      challengeRoundU H Hs params origin sealed pub leaves tree root count par =
        challengeRound H Hs params origin sealed pub leaves tree root count par := fun sealed pub leaves tree root =>
    funext fun ch => challengeRoundU_eq fit H Hs origin sealed pub leaves tree root count par ch
  simp only [copyAndPadU_eq fit.pad, prepareParamsU_eq fit, bind_ok, sealFileU_eq fit.unit64 (reach_of_lt fit.blocks),
    unsealFileU_eq fit.unit64 (reach_of_lt fit.blocks), copyAndCompressU_eq (reach_of_lt fit.units),
    generateMerkleTreeFromFileU_eq fit.leaves, this]
  rfl

end runs

/-- Whole runs, `test_postorage` and `test_pipeline`: with sizes within the limits, and so with every shipped
parameter set, nothing overflows, whatever the files, the random numbers and the schedule; results and panics are
those of unlimited positions. -/
theorem C116_runs (params : PosPara) (fit : SizesFit params ∨ ∃ l, params = genPosdata l) (H Hs : Bytes → Bytes) :
    (∀ flags par ch d, testPostorageU H Hs params flags par ch d = testPostorage H Hs params flags par ch d) ∧
      ∀ origin old rng count par choices,
        pipelineU H Hs params origin old rng count par choices = pipeline H Hs params origin old rng count par choices := by
  have fit : SizesFit params := by
    rcases fit with h | ⟨l, rfl⟩
    · exact h
    · exact SizesFit.shipped l
  exact ⟨testPostorageU_eq fit H Hs, pipelineU_eq fit H Hs⟩

/-! ### concrete cases -/

/-- Meets the hypotheses of `C116_pad`, `C116_compress`, `C116_seal` and `C116_unseal`: three blocks of one unit. -/
example : (match copyAndPadU (toyFile 189) 189 63 with
    | .ok padded =>
      (match sealFileU toyHash (toyParams 3 1 0 0 1 1 2) padded P_512 [1, 2, 3] with
      | .ok st =>
        (match unsealFileU toyHash (toyParams 3 1 0 0 1 1 2) st.file P_512 [1, 2, 3] with
        | .ok plain => decide (plain = padded ∧ st.file ≠ padded ∧
            copyAndCompressU plain 189 63 64 = .ok (toyFile 189) ∧ Reach 63 3 ∧ Reach 64 3)
        | .error _ => false)
      | .error _ => false)
    | .error _ => false) = true := by decide +kernel

/-- The other side of `C116_verify` and `C116_prepare`: block 2^63 of an empty file is a block of zeros for unlimited
positions, and a panic here; the last block within reach is read. -/
example : batchVerify [] (2 ^ 63) [[0]] 1 1 = .ok () ∧ batchVerifyU [] (2 ^ 63) [[0]] 1 1 = .error .unwrap ∧
    batchVerifyU [] (2 ^ 64) [[0]] 1 1 = .error .overflow ∧ batchVerifyU [] (2 ^ 63 - 1) [[0]] 1 1 = .ok () ∧
    (singleUnsealPrepare toyHash (toyParams 3 1 0 0 1 1 2) [] (2 ^ 57)).toOption.map (·.block) = some [zeros 64] ∧
    singleUnsealPrepareU toyHash (toyParams 3 1 0 0 1 1 2) [] (2 ^ 57) = .error .unwrap ∧
    (singleUnsealPrepareU toyHash (toyParams 3 1 0 0 1 1 2) [] (2 ^ 57 - 1)).toOption.map (·.block) = some [zeros 64] := by
  decide +kernel

/-- The two sides of `C116_range_blocks` and `C116_range`. -/
example : blocksIdxOf 64 (2 ^ 64 - 2) (2 ^ 64 - 1) = .ok [2 ^ 58 - 1] ∧
    blocksIdxOfU 64 (2 ^ 64 - 2) (2 ^ 64 - 1) = .error .overflow ∧
    blocksIdxOfU 64 (2 ^ 64 - 66) (2 ^ 64 - 65) = .ok [2 ^ 58 - 2] ∧
    (batchUnsealPrepareU toyHash (toyParams 3 1 0 0 1 1 2) (toyFile 192) 64 192).toOption.map (·.blocksIdx) =
      some [1, 2] := by decide +kernel

/-- Meets the hypotheses of `C116_unseal_verify` (no blocks to compare beyond the first) and of `C116_tree`; a tree whose
reads would pass 2^63 panics. -/
example : batchUnsealAndVerifyU toyHash (toyParams 1 1 0 0 1 1 0) (toyFile 63) [0] [toyFile 63 :: []] [[]] [[]] P_512 [] =
      .ok () ∧
    (generateMerkleTreeFromFileU toyHash (toyFile 9) 9 3).toOption.map (fun t => t.1.length) = some 3 ∧
    generateMerkleTreeFromFileU toyHash [] 1 (2 ^ 63) = .error .overflow := by
  decide +kernel

/-- Sizes far beyond the shipped ones that still fit: 2^56 bytes in blocks of 63 * 2^20 bytes. -/
example : SizesFit { genPosdata 1 with dataL := 2 ^ 56, blockL := 63 * 2 ^ 20, blockPl := 64 * 2 ^ 20 } ∧
    ¬ SizesFit { genPosdata 1 with dataL := 2 ^ 63 } := by
  refine ⟨by constructor <;> norm_num [genPosdata], fun h => ?_⟩
  have := h.data
  norm_num [genPosdata] at this

end PoS
