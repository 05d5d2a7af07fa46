import Verif.Proofs.Select
import Verif.Model.Common

/-
C62 - C63: what the hash-chosen dependency lists are, exactly.
-/

namespace PoS

/-! ### C62: the lists are determined by the hash chain -/

/-- `long_mode_random` for up to 65536 blocks, or with at most five requested dependencies: the strictly increasing list of the residues of the
numbers read from the hash chain, of which at most `count` are used. -/
theorem C62_long (H : Bytes → Bytes) (hH : ∀ x, (H x).length = 32) (num index count : Nat)
    (hnum : num ≤ 65536 ∨ count ≤ 5) (hi : 0 < index) (data : Bytes) :
    ∃ l, longModeRandom H num data index count = .ok l ∧ l.Pairwise (· < ·) ∧
      ∀ j, j ∈ l ↔ ∃ i, i < count ∧ i < available num count ∧ j = drawn H data num i % index := by
  refine ⟨_, longModeRandom_eq hH hnum hi data, sortDedup_sorted _, ?_⟩
  intro j
  rw [mem_sortDedup, ← List.map_take, List.mem_map]
  constructor
  · rintro ⟨i, h, rfl⟩
    rw [List.take_range, List.mem_range] at h
    exact ⟨i, by omega, by omega, rfl⟩
  · rintro ⟨i, h1, h2, rfl⟩
    exact ⟨i, by rw [List.take_range, List.mem_range]; omega, rfl⟩

/-- Up to 256 blocks every requested dependency is drawn: one byte of the chain each. -/
theorem C62_long_small (H : Bytes → Bytes) (hH : ∀ x, (H x).length = 32) (num index count : Nat)
    (hnum : num ≤ 256) (hi : 0 < index) (data : Bytes) :
    ∃ l, longModeRandom H num data index count = .ok l ∧ l.Pairwise (· < ·) ∧
      ∀ j, j ∈ l ↔ ∃ i < count, j = streamByte H data i % index := by
  obtain ⟨l, h1, h2, h3⟩ := C62_long H hH num index count (by omega) hi data
  refine ⟨l, h1, h2, fun j => (h3 j).trans ?_⟩
  have ha : count ≤ available num count := by
    unfold available
    rw [if_pos hnum]
    omega
  constructor
  · rintro ⟨i, hi, -, rfl⟩
    exact ⟨i, hi, by unfold drawn; rw [if_pos hnum]⟩
  · rintro ⟨i, hi, rfl⟩
    exact ⟨i, hi, by omega, by unfold drawn; rw [if_pos hnum]⟩

/-- `short_depend_random` for up to 65536 units: draws that hit the unit itself are skipped. -/
theorem C62_short (H : Bytes → Bytes) (hH : ∀ x, (H x).length = 32) (num index count : Nat)
    (h0 : 0 < num) (hnum : num ≤ 65536) (data : Bytes) :
    ∃ l, shortDependRandom H num data index count = .ok l ∧ l.Pairwise (· < ·) ∧
      ∀ j, j ∈ l ↔ j ∈ (((List.range (available num count)).map (fun i => drawn H data num i % num)).filter
        (fun d => decide (d ≠ index))).take count := by
  refine ⟨_, shortDependRandom_eq hH h0 (Or.inl hnum) data, sortDedup_sorted _, ?_⟩
  intro j
  rw [mem_sortDedup]

/-- The same above 65536 units with at most five requested, whenever the call returns. -/
theorem C62_short_large (H : Bytes → Bytes) (hH : ∀ x, (H x).length = 32) (num index count : Nat)
    (hnum : 65536 < num) (hc : count ≤ 5) (data : Bytes) (l : List Nat)
    (h : shortDependRandom H num data index count = .ok l) :
    l.Pairwise (· < ·) ∧ ∀ j, j ∈ l ↔ j ∈ (((List.range 5).map (fun i => drawn H data num i % num)).filter
        (fun d => decide (d ≠ index))).take count := by
  rw [shortDependRandom_few hH hnum hc] at h
  split at h
  · obtain rfl := Except.ok.inj h
    exact ⟨sortDedup_sorted _, fun j => mem_sortDedup⟩
  · cases h

/-- The choice depends only on the first 16 bytes of the hash of the seed: two seeds whose hashes
agree there select the same positions. -/
theorem C62_seed_prefix (H : Bytes → Bytes) (hH : ∀ x, (H x).length = 32) (num index count : Nat)
    (h0 : 0 < num) (d1 d2 : Bytes) (h : (H d1).take 16 = (H d2).take 16) :
    longModeRandom H num d1 index count = longModeRandom H num d2 index count ∧
    shortDependRandom H num d1 index count = shortDependRandom H num d2 index count := by
  have hc : ∀ j, prefixChain H d1 j = prefixChain H d2 j := by
    intro j
    induction j with
    | zero => exact h
    | succ j ih => simp only [prefixChain, ih]
  have hd : ∀ i, drawn H d1 num i = drawn H d2 num i := by
    intro i
    unfold drawn streamByte
    simp only [hc]
  constructor
  · rcases Nat.eq_zero_or_pos index with hz | hz
    · unfold longModeRandom; rw [if_pos hz, if_pos hz]
    · by_cases hnum : num ≤ 65536 ∨ count ≤ 5
      · rw [longModeRandom_eq hH hnum hz, longModeRandom_eq hH hnum hz]
        simp only [hd]
      · rw [longModeRandom_large hH (by omega) hz (by omega), longModeRandom_large hH (by omega) hz (by omega)]
  · by_cases hnum : num ≤ 65536
    · rw [shortDependRandom_eq hH h0 (Or.inl hnum), shortDependRandom_eq hH h0 (Or.inl hnum)]
      simp only [hd]
    · by_cases hc : count ≤ 5
      · rw [shortDependRandom_few hH (by omega) hc, shortDependRandom_few hH (by omega) hc]
        simp only [hd]
      · rw [shortDependRandom_large hH (by omega) (by omega), shortDependRandom_large hH (by omega) (by omega)]

/-- A hash whose bytes count up from the length of the input. -/
def countingHash (x : Bytes) : Bytes := (List.range 32).map (fun i => UInt8.ofNat (x.length + i))

example : (∀ x, (countingHash x).length = 32) ∧
    longModeRandom countingHash 100 [7, 7] 50 3 = .ok [2, 3, 4] ∧
    longModeRandom countingHash 100 [7, 7] 9 20 = .ok [0, 1, 2, 3, 4, 5, 6, 7, 8] ∧
    shortDependRandom countingHash 100 [7, 7] 3 3 = .ok [2, 4, 5] ∧
    shortDependRandom countingHash 1000 [7, 7] 261 4 = .ok [265, 269, 273, 277] ∧
    longModeRandom countingHash 70000 [7, 7] 60000 4 = .ok [777, 786, 795, 804] ∧
    shortDependRandom countingHash 70000 [7, 7] 786 4 = .ok [777, 795, 804, 813] :=
  ⟨fun _ => by simp [countingHash], by decide +kernel, by decide +kernel, by decide +kernel, by decide +kernel, by decide +kernel, by decide +kernel⟩

example : (countingHash [1, 2]).take 16 = (countingHash [3, 4]).take 16 := by decide

/-! ### C63: fewer dependencies than requested -/

theorem available_large {num count : Nat} (h : 256 < num) (hn : num ≤ 65536) (hc : 8 < count) :
    available num count = 8 * max 1 (count / 16) ∧ available num count < count := by
  unfold available
  rw [if_neg (by omega), if_pos hn]
  refine ⟨rfl, ?_⟩
  omega

theorem sortDedup_length_le {l : List Nat} : (sortDedup l).length ≤ l.length := sortDedup_length l

/-- With more than 256 positions and more than eight requested dependencies, strictly fewer are
chosen than requested, whatever the hash values: at most eight below 32 requested ones, and never
more than half from 16 on. -/
theorem C63_shortfall (H : Bytes → Bytes) (hH : ∀ x, (H x).length = 32) (num index count : Nat)
    (hn : 256 < num) (hnum : num ≤ 65536) (hc : 8 < count) (data : Bytes) (l : List Nat)
    (h : longModeRandom H num data index count = .ok l ∨ shortDependRandom H num data index count = .ok l) :
    l.length < count ∧ (count < 32 → l.length ≤ 8) ∧ (16 ≤ count → 2 * l.length ≤ count) := by
  obtain ⟨h1, h2⟩ := available_large hn hnum hc
  have hl : l.length ≤ available num count := by
    rcases h with h | h
    · rcases Nat.eq_zero_or_pos index with hz | hz
      · unfold longModeRandom at h
        rw [if_pos hz] at h
        cases h; simp
      · rw [longModeRandom_eq hH (Or.inl hnum) hz] at h
        cases h
        refine le_trans (sortDedup_length _) ?_
        simp
    · rw [shortDependRandom_eq hH (by omega) (Or.inl hnum)] at h
      cases h
      refine le_trans (sortDedup_length _) (le_trans (List.length_take_le' _ _) ?_)
      refine le_trans (List.length_filter_le _ _) ?_
      simp
  refine ⟨by omega, ?_, ?_⟩
  · intro h32
    omega
  · intro h16
    omega

/-- The two larger shipped parameter sets ask for ten short dependencies per unit and never get
more than eight. -/
theorem C63_shipped (H : Bytes → Bytes) (hH : ∀ x, (H x).length = 32) (l index : Nat) (hl1 : l ≠ 1)
    (hl4 : l ≠ 4) (data : Bytes) (deps : List Nat)
    (h : shortDependRandom H ((genPosdata l).blockL / (genPosdata l).unitL) data index (genPosdata l).cntS =
      .ok deps) : (genPosdata l).cntS = 10 ∧ deps.length ≤ 8 := by
  have hp : (genPosdata l).cntS = 10 ∧ 256 < (genPosdata l).blockL / (genPosdata l).unitL ∧
      (genPosdata l).blockL / (genPosdata l).unitL ≤ 65536 := by
    unfold genPosdata
    rw [if_neg hl1, if_neg hl4]
    split <;> decide
  refine ⟨hp.1, ?_⟩
  rw [hp.1] at h
  exact (C63_shortfall H hH _ index 10 hp.2.1 hp.2.2 (by omega) data deps (Or.inr h)).2.1 (by omega)

/-- Eight are reached: the bound is exact. -/
example : ∃ l, shortDependRandom countingHash 1024 [] 0 10 = .ok l ∧ l.length = 8 :=
  ⟨_, rfl, by decide +kernel⟩

/-- Up to 256 positions the request is met: sixteen different bytes give sixteen dependencies. -/
example : ∃ l, shortDependRandom countingHash 256 [] 99 16 = .ok l ∧ l.length = 16 :=
  ⟨_, rfl, by decide +kernel⟩

end PoS
