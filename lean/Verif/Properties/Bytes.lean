import Verif.Proofs.SealTotal
import Verif.Spec.Storage

/-
Properties of the byte-level helpers: C14, C15, C16, C33, C35.
-/

namespace PoS

/-! ### C14: units -/

/-- Splitting succeeds exactly when the unit size is positive and divides the length,
and then joining gives the data back. -/
theorem C14_to_units_iff (data : Bytes) (len : Nat) :
    (∃ us, toUnits data len = .ok us) ↔ 0 < len ∧ len ∣ data.length := by
  constructor
  · rintro ⟨us, h⟩
    have hl : 0 < len := by
      rcases Nat.eq_zero_or_pos len with h0 | h0
      · unfold toUnits at h; rw [if_pos h0] at h; cases h
      · exact h0
    refine ⟨hl, ?_⟩
    by_contra hnd
    rw [toUnits_error data len hl hnd] at h
    cases h
  · rintro ⟨hl, n, hn⟩
    obtain ⟨us, h, -⟩ := toUnits_ok data len n hl (by rw [hn, Nat.mul_comm])
    exact ⟨us, h⟩

/-- Joining undoes splitting, and every unit has the requested size. -/
theorem C14_join_split (data : Bytes) (len : Nat) (us : List Bytes) (h : toUnits data len = .ok us) :
    comUnits us = .ok data ∧ (∀ u ∈ us, u.length = len) ∧ us.length * len = data.length := by
  obtain ⟨hl, n, hn⟩ := (C14_to_units_iff data len).mp ⟨us, h⟩
  obtain ⟨vs, h1, h2, h3, h4⟩ := toUnits_ok data len n hl (by rw [hn, Nat.mul_comm])
  rw [h] at h1
  cases h1
  exact ⟨by rw [comUnits_eq, h4], h3, by rw [h2, hn, Nat.mul_comm]⟩

/-- Splitting undoes joining of equal-size units. -/
theorem C14_split_join (us : List Bytes) (len : Nat) (hlen : 0 < len) (hus : ∀ u ∈ us, u.length = len) :
    ∃ data, comUnits us = .ok data ∧ toUnits data len = .ok us :=
  ⟨us.flatten, comUnits_eq us, toUnits_flatten us len hlen hus⟩

example : toUnits [1, 2, 3, 4, 5, 6] 2 = .ok [[1, 2], [3, 4], [5, 6]] ∧
    toUnits [1, 2, 3, 4, 5] 2 = .error .index ∧ toUnits [1] 0 = .error .zero := by decide

/-! ### C15: padding -/

/-- Padding: unit `j` of the result is unit `j` of the original followed by one zero
byte, the length is exact, and compressing gives back the original — also when more
data follows the padded content. -/
theorem C15_pad_compress (origin : Bytes) (unitL k : Nat) (hu : 0 < unitL) (hlen : origin.length = k * unitL) :
    ∃ padded, copyAndPad origin (k * unitL) unitL = .ok padded ∧
      padded.length = k * (unitL + 1) ∧
      (∀ j < k, readFile padded (j * (unitL + 1)) (unitL + 1) = readFile origin (j * unitL) unitL ++ [0]) ∧
      ∀ rest, copyAndCompress (padded ++ rest) (k * unitL) unitL (unitL + 1) = .ok origin := by
  obtain ⟨us, h1, h2, h3⟩ := exists_units origin unitL k hlen
  have hp : ∀ v ∈ padUnits us, v.length = unitL + 1 := by
    intro v hv
    unfold padUnits at hv
    rw [List.mem_map] at hv
    obtain ⟨u, hu, rfl⟩ := hv
    simp [h2 u hu]
  have hpl : (padUnits us).length = k := by simp [padUnits, h1]
  refine ⟨(padUnits us).flatten, ?_, ?_, ?_, ?_⟩
  · have := copyAndPad_eq hu h2
    rwa [h3, h1] at this
  · rw [flatten_length_const _ _ hp, hpl]
  · intro j hj
    have e1 := flatten_drop_take (padUnits us) (unitL + 1) j (by omega) hp []
    have e2 := flatten_drop_take us unitL j (by omega) h2 []
    rw [List.append_nil] at e1 e2
    rw [e1, ← h3, e2]
    simp [padUnits]
  · intro rest
    have := copyAndCompress_eq hu h2 rest
    rwa [h3, h1] at this

example : copyAndPad [1, 2, 3, 4] 4 2 = .ok [1, 2, 0, 3, 4, 0] ∧
    copyAndCompress [1, 2, 0, 3, 4, 0] 4 2 3 = .ok [1, 2, 3, 4] := by decide

/-! ### C16: reading past the end -/

/-- A read returns exactly `len` bytes: the file where it exists, zeros beyond. -/
theorem C16_read_file (file : Bytes) (off len : Nat) :
    (readFile file off len).length = len ∧
    (∀ i < len, off + i < file.length → (readFile file off len)[i]? = file[off + i]?) ∧
    (∀ i < len, file.length ≤ off + i → (readFile file off len)[i]? = some 0) := by
  refine ⟨readFile_length _ _ _, ?_, ?_⟩
  · intro i hi h
    rw [readFile_getElem?, if_pos hi, List.getElem?_eq_getElem h]
    rfl
  · intro i hi h
    rw [readFile_getElem?, if_pos hi, List.getElem?_eq_none h]
    rfl

example : readFile [1, 2, 3] 1 4 = [2, 3, 0, 0] := by decide

/-! ### C33: shipped parameter sets -/

/-- Every parameter set of `gen_posdata` satisfies the relations sealing relies on, with
256 blocks. -/
theorem C33_shipped_consistent (l : Nat) :
    let q := genPosdata l
    ∃ c, c ∈ [64, 256, 1024, 4096] ∧ 0 < q.unitL ∧ q.unitPl = q.unitL + 1 ∧
      q.blockL = c * q.unitL ∧ q.blockPl = c * q.unitPl ∧ q.dataL = 256 * q.blockL ∧
      q.dataL / q.blockL = 256 ∧ q.blockL / q.unitL = q.blockPl / q.unitPl ∧
      0 < q.sealRounds ∧ 0 < q.vdeRounds ∧ q.modeL = 0 ∧ q.modeS = 0 := by
  simp only
  unfold genPosdata
  split
  · exact ⟨64, by decide⟩
  · split
    · exact ⟨256, by decide⟩
    · split
      · exact ⟨1024, by decide⟩
      · exact ⟨4096, by decide⟩

/-- The number of units per block for each accepted argument. -/
theorem C33_unit_counts :
    (genPosdata 1).blockL = 64 * 63 ∧ (genPosdata 4).blockL = 256 * 63 ∧
    (genPosdata 16).blockL = 1024 * 63 ∧
    ∀ l, l ≠ 1 → l ≠ 4 → l ≠ 16 → genPosdata l = genPosdata 64 := by
  refine ⟨rfl, rfl, rfl, ?_⟩
  intro l h1 h2 h3
  unfold genPosdata
  simp [h1, h2, h3]

/-! ### C35: exclusive or -/

theorem vecu8Xor_left {a b : Bytes} (h : b.length ≤ a.length) :
    vecu8Xor a b = .ok (List.zipWith (· ^^^ ·) a b ++ a.drop b.length) := by
  have hx : ∀ m, m = b.length → m ≤ a.length → ∀ acc : Bytes,
      forUp m (fun i res => do
        let x ← at! a i
        let y ← at! b i
        pure (res ++ [x ^^^ y])) acc = .ok (acc ++ List.zipWith (· ^^^ ·) a b) := by
    intro m hm hma acc
    have hl : (List.zipWith (· ^^^ ·) a b).length = m := by simp; omega
    rw [forUp_append_take (List.zipWith (· ^^^ ·) a b) _ m (by omega)]
    · rw [List.take_of_length_le (by omega)]
    · intro k hk s
      rw [at!_of_lt (by omega), bind_ok, at!_of_lt (by omega), bind_ok]
      simp
  unfold vecu8Xor
  split
  · next h1 =>
    rw [hx b.length rfl h [], bind_ok, forUp_append_take (a.drop b.length) _ _ (by simp)]
    · rw [List.take_of_length_le (by simp)]; rfl
    · intro k hk s
      rw [at!_of_lt (by omega), bind_ok]
      simp
  · next h1 =>
    have he : a.length = b.length := by omega
    rw [hx a.length he (Nat.le_refl _) [], bind_ok, he, Nat.sub_self]
    simp [forUp, ← he]

theorem vecu8Xor_right {a b : Bytes} (h : a.length ≤ b.length) :
    vecu8Xor a b = .ok (List.zipWith (· ^^^ ·) a b ++ b.drop a.length) := by
  rcases Nat.lt_or_ge a.length b.length with h1 | h1
  · unfold vecu8Xor
    rw [if_neg (by omega)]
    have hl : (List.zipWith (· ^^^ ·) a b).length = a.length := by simp; omega
    rw [forUp_append_take (List.zipWith (· ^^^ ·) a b) _ a.length (by omega), bind_ok,
      List.take_of_length_le (by omega), forUp_append_take (b.drop a.length) _ _ (by simp)]
    · rw [List.take_of_length_le (by simp)]; rfl
    · intro k hk s
      rw [at!_of_lt (by omega), bind_ok]
      simp
    · intro k hk s
      rw [at!_of_lt (by omega), bind_ok, at!_of_lt (by omega), bind_ok]
      simp
  · have he : a.length = b.length := by omega
    rw [vecu8Xor_left h1]
    simp [he]

/-- The result has the longer length and is the bytewise exclusive or with zero extension. -/
theorem C35_xor_bytes (a b : Bytes) :
    ∃ r, vecu8Xor a b = .ok r ∧ r.length = max a.length b.length ∧
      ∀ i < r.length, r[i]? = some ((a[i]?.getD 0) ^^^ (b[i]?.getD 0)) := by
  rcases Nat.le_total b.length a.length with h | h
  · refine ⟨_, vecu8Xor_left h, by simp; omega, ?_⟩
    intro i hi
    have hia : i < a.length := by simp at hi; omega
    rcases Nat.lt_or_ge i b.length with hb | hb
    · rw [List.getElem?_append_left (by simp; omega), List.getElem?_eq_getElem (by simp; omega)]
      simp [List.getElem?_eq_getElem hia, List.getElem?_eq_getElem hb]
    · rw [List.getElem?_append_right (by simp; omega)]
      have : min a.length b.length = b.length := by omega
      simp [List.getElem?_eq_getElem hia, List.getElem?_eq_none hb, this]
      rw [Nat.add_sub_cancel' hb, List.getElem?_eq_getElem hia]
  · refine ⟨_, vecu8Xor_right h, by simp; omega, ?_⟩
    intro i hi
    have hib : i < b.length := by simp at hi; omega
    rcases Nat.lt_or_ge i a.length with hb | hb
    · rw [List.getElem?_append_left (by simp; omega), List.getElem?_eq_getElem (by simp; omega)]
      simp [List.getElem?_eq_getElem hib, List.getElem?_eq_getElem hb]
    · rw [List.getElem?_append_right (by simp; omega)]
      have : min a.length b.length = a.length := by omega
      simp [List.getElem?_eq_getElem hib, List.getElem?_eq_none hb, this]
      rw [Nat.add_sub_cancel' hb, List.getElem?_eq_getElem hib]

/-- Commutativity. -/
theorem C35_xor_comm (a b : Bytes) : vecu8Xor a b = vecu8Xor b a := by
  obtain ⟨r, h1, h2, h3⟩ := C35_xor_bytes a b
  obtain ⟨s, g1, g2, g3⟩ := C35_xor_bytes b a
  rw [h1, g1]
  congr 1
  apply List.ext_getElem?
  intro i
  rcases Nat.lt_or_ge i r.length with hi | hi
  · rw [h3 i hi, g3 i (by rw [g2, max_comm, ← h2]; exact hi), UInt8.xor_comm]
  · rw [List.getElem?_eq_none hi, List.getElem?_eq_none (by rw [g2, max_comm, ← h2]; exact hi)]

/-- Applying a mask that is not longer than the data twice gives the data back. -/
theorem C35_xor_twice (a m : Bytes) (h : m.length ≤ a.length) :
    ∃ r, vecu8Xor a m = .ok r ∧ vecu8Xor r m = .ok a := by
  obtain ⟨r, h1, h2, h3⟩ := C35_xor_bytes a m
  obtain ⟨s, g1, g2, g3⟩ := C35_xor_bytes r m
  refine ⟨r, h1, ?_⟩
  rw [g1]
  congr 1
  apply List.ext_getElem?
  intro i
  rcases Nat.lt_or_ge i a.length with hi | hi
  · rw [g3 i (by omega), h3 i (by omega), Option.getD_some, UInt8.xor_assoc, UInt8.xor_self,
      UInt8.xor_zero, List.getElem?_eq_getElem hi]
    rfl
  · rw [List.getElem?_eq_none hi, List.getElem?_eq_none (by omega)]

/-- With a longer mask the data is returned zero-extended to the length of the mask. -/
theorem C35_xor_twice_long (a m : Bytes) (h : a.length ≤ m.length) :
    ∃ r, vecu8Xor a m = .ok r ∧ vecu8Xor r m = .ok (a ++ zeros (m.length - a.length)) := by
  obtain ⟨r, h1, h2, h3⟩ := C35_xor_bytes a m
  obtain ⟨s, g1, g2, g3⟩ := C35_xor_bytes r m
  refine ⟨r, h1, ?_⟩
  rw [g1]
  congr 1
  apply List.ext_getElem?
  intro i
  rcases Nat.lt_or_ge i m.length with hi | hi
  · rw [g3 i (by omega), h3 i (by omega), Option.getD_some, UInt8.xor_assoc, UInt8.xor_self,
      UInt8.xor_zero]
    rcases Nat.lt_or_ge i a.length with ha | ha
    · rw [List.getElem?_append_left ha, List.getElem?_eq_getElem ha]; rfl
    · rw [List.getElem?_append_right ha, List.getElem?_eq_none ha]
      unfold zeros
      rw [List.getElem?_replicate, if_pos (by omega)]; rfl
  · rw [List.getElem?_eq_none (by omega), List.getElem?_eq_none (by simp [zeros]; omega)]

example : vecu8Xor [255, 1, 7] [15] = .ok [240, 1, 7] ∧ vecu8Xor [240, 1, 7] [15] = .ok [255, 1, 7] := by
  decide

end PoS
