import Verif.Spec.Release
import Verif.Proofs.Verifier
import Verif.Proofs.SealExact
import Mathlib.Data.List.TakeWhile

/-
Dependency lists and tables of a release build.
-/

namespace PoS

set_option linter.unusedSectionVars false

/-- A loop whose body does at least what another body does. -/
theorem forUp_mono {σ : Type} {n : Nat} {f g : Nat → σ → R σ} {s t : σ}
    (h : ∀ k < n, ∀ s t, f k s = .ok t → g k s = .ok t) (hrun : forUp n f s = .ok t) : forUp n g s = .ok t := by
  induction n generalizing t with
  | zero => exact hrun
  | succ n ih =>
    rw [forUp_succ, bind_eq_ok] at hrun
    obtain ⟨u, hu, hrun⟩ := hrun
    rw [forUp_succ, ih (fun k hk => h k (by omega)) hu, bind_ok]
    exact h n (by omega) _ _ hrun

/-! ### Powers of two modulo 2^64 -/

theorem pow2_mod_low {i : Nat} (h : i < 64) : 2 ^ i % 2 ^ 64 = 2 ^ i :=
  Nat.mod_eq_of_lt (Nat.pow_lt_pow_right (by norm_num) h)

theorem pow2_mod_high {i : Nat} (h : 64 ≤ i) : 2 ^ i % 2 ^ 64 = 0 :=
  Nat.mod_eq_zero_of_dvd (pow_dvd_pow 2 h)

theorem pow2_le {i : Nat} (h : i < 64) : 2 ^ i ≤ 2 ^ 63 := Nat.pow_le_pow_right (by norm_num) (by omega)

theorem wpow2_low {i : Nat} (h : i < 64) : wpow2 i = .ok (2 ^ i) := by
  unfold wpow2
  rw [if_pos (by omega), pow2_mod_low h]

theorem wpow2_high {i : Nat} (h : 64 ≤ i) (h2 : i < 2 ^ 32) : wpow2 i = .ok 0 := by
  unfold wpow2
  rw [if_pos h2, pow2_mod_high h]

theorem one_add_pow2 {i : Nat} (h : i < 64) : (1 + 2 ^ i) % 2 ^ 64 = 1 + 2 ^ i := by
  have := pow2_le h
  exact Nat.mod_eq_of_lt (by omega)

/-! ### Long dependencies -/

theorem longMode2R_eq (index count : Nat) (hc : count ≤ 2 ^ 32) :
    longMode2R index count = .ok (wrappedPowers index count) := by
  unfold longMode2R
  induction count with
  | zero => simp [wrappedPowers, forUp]
  | succ n ih =>
    rw [forUp_succ, ih (by omega), bind_ok]
    rcases Nat.lt_or_ge n 64 with h | h
    · rw [wpow2_low h, bind_ok]
      simp only [one_add_pow2 h]
      unfold wrappedPowers
      rw [show min (n + 1) 64 = n + 1 by omega, show min n 64 = n by omega, show n + 1 - 64 = 0 by omega,
        show n - 64 = 0 by omega, List.range_succ, List.filter_append, List.map_append]
      by_cases hi : 2 ^ n < index
      · rw [if_pos (by omega)]
        simp [hi, Nat.sub_sub]
      · rw [if_neg (by omega)]
        simp [hi]
    · rw [wpow2_high h (by omega), bind_ok]
      unfold wrappedPowers
      rw [show min (n + 1) 64 = 64 by omega, show min n 64 = 64 by omega, show n + 1 - 64 = (n - 64) + 1 by omega]
      simp only [show (1 + 0) % 2 ^ 64 = 1 by norm_num]
      by_cases hi : index = 0
      · rw [if_neg (by omega), if_pos hi, if_pos hi]
        rfl
      · rw [if_pos (by omega), if_neg hi, if_neg hi, List.replicate_succ', List.append_assoc]
        rfl

theorem longMode3R_eq (index : Nat) (hi : index ≤ 10 * 2 ^ 32) :
    longMode3R index = .ok (wrappedPowers index (index / 10)) := by
  have : longMode3R index = longMode2R index (index / 10) := rfl
  rw [this, longMode2R_eq _ _ (by omega)]

theorem wrappedPowers_lt {index count j : Nat} (h : j ∈ wrappedPowers index count) : j < index := by
  unfold wrappedPowers at h
  rw [List.mem_append] at h
  rcases h with h | h
  · rw [List.mem_map] at h
    obtain ⟨i, hi, rfl⟩ := h
    simp only [List.mem_filter, List.mem_range, decide_eq_true_eq] at hi
    have : 0 < 2 ^ i := Nat.pos_of_ne_zero (by simp)
    omega
  · split at h
    · simp at h
    · have := List.eq_of_mem_replicate h
      omega

theorem longMode2_agrees {index count : Nat} {l : List Nat} (h : longMode2 index count = .ok l) :
    longMode2R index count = .ok l := by
  rcases Nat.lt_or_ge 64 count with hc | hc
  · rw [longMode2_error _ _ hc] at h
    cases h
  · rw [longMode2_eq _ _ hc] at h
    rw [longMode2R_eq _ _ (by omega), ← Except.ok.inj h]
    unfold wrappedPowers
    rw [show min count 64 = count by omega, show count - 64 = 0 by omega]
    simp

theorem longDepend_agrees {index count mode : Nat} {l : List Nat} (h : longDepend index count mode = .ok l) :
    longDependR index count mode = .ok l := by
  unfold longDepend at h
  unfold longDependR
  split at h
  · next m => rw [if_pos m]; exact h
  · next m =>
    rw [if_neg m]
    split at h
    · next m => rw [if_pos m]; exact longMode2_agrees h
    · next m =>
      rw [if_neg m]
      split at h
      · next m =>
        rw [if_pos m]
        rw [longMode3_eq] at h
        exact longMode2_agrees h
      · next m => rw [if_neg m]; exact h

/-! ### Short dependencies -/

/-- Position `i` of the rule exists. -/
def AltIn (num index i : Nat) : Prop := 0 ≤ alternating index i ∧ alternating index i < (num : Int)

instance (num index i : Nat) : Decidable (AltIn num index i) := inferInstanceAs (Decidable (_ ∧ _))

theorem alternatingList_succ (num index k : Nat) :
    alternatingList num index (k + 1) =
      if ∀ i < k + 1, AltIn num index i then alternatingList num index k ++ [(alternating index k).toNat]
      else alternatingList num index k := by
  unfold alternatingList
  rw [List.range_succ, List.map_append, List.takeWhile_append]
  have hall : ((((List.range k).map (alternating index)).takeWhile
      (fun x => decide (0 ≤ x ∧ x < (num : Int)))).length = ((List.range k).map (alternating index)).length) ↔
      ∀ i < k, AltIn num index i := by
    constructor
    · intro h
      have h := (List.takeWhile_prefix _).eq_of_length h
      rw [List.takeWhile_eq_self_iff] at h
      intro i hi
      simpa [AltIn] using h (alternating index i) (List.mem_map_of_mem (List.mem_range.mpr hi))
    · intro h
      congr 1
      rw [List.takeWhile_eq_self_iff]
      simpa [AltIn] using h
  by_cases ha : ∀ i < k, AltIn num index i
  · rw [if_pos (hall.mpr ha), List.map_append]
    have hself := (List.takeWhile_prefix (fun x => decide (0 ≤ x ∧ x < (num : Int)))).eq_of_length (hall.mpr ha)
    rw [hself]
    by_cases hk : AltIn num index k
    · have hk' := hk
      unfold AltIn at hk'
      rw [if_pos (fun i hi => by rcases Nat.lt_succ_iff_lt_or_eq.mp hi with h | h; exacts [ha i h, h ▸ hk])]
      simp [hk']
    · have hk' := hk
      unfold AltIn at hk'
      rw [if_neg (fun h => hk (h k (by omega)))]
      simp [hk']
  · rw [if_neg (fun h => ha (hall.mp h)), if_neg (fun h => ha (fun i hi => h i (by omega)))]

theorem alternatingList_stop {num index k m : Nat} (hk : ¬ ∀ i < k, AltIn num index i) (hm : k ≤ m) :
    alternatingList num index m = alternatingList num index k := by
  induction m, hm using Nat.le_induction with
  | base => rfl
  | succ m hm ih => rw [alternatingList_succ, if_neg (fun h => hk (fun i hi => h i (by omega))), ih]

/-- As long as the rule has not left the range, the exponents are small. -/
theorem altIn_bound {num index k : Nat} (hn : num ≤ 2 ^ 63) (h : ∀ i < k, AltIn num index i) : k ≤ 63 := by
  by_contra hk
  have h0 := h 0 (by omega)
  have h63 := h 63 (by omega)
  unfold AltIn alternating at h0 h63
  norm_num at h0 h63
  omega

/-- One step of `short_mode_2` in a release build. -/
theorem altStep {num index k : Nat} (hn : num ≤ 2 ^ 63) (hi : index < num) (hk : k ≤ 63) :
    ((if (decide (k % 2 = 1)) = true then wsub index (wsub 1 (2 ^ k)) else wsub index ((1 + 2 ^ k) % 2 ^ 64)) < num ↔
      AltIn num index k) ∧
    (AltIn num index k →
      (if (decide (k % 2 = 1)) = true then wsub index (wsub 1 (2 ^ k)) else wsub index ((1 + 2 ^ k) % 2 ^ 64)) =
        (alternating index k).toNat) := by
  rw [one_add_pow2 (by omega)]
  have hle : 2 ^ k ≤ 2 ^ 63 := pow2_le (by omega)
  have hcast : ((2 : Int) ^ k) = ((2 ^ k : Nat) : Int) := by push_cast; rfl
  unfold AltIn alternating wsub
  rw [hcast]
  rcases Nat.mod_two_eq_zero_or_one k with h | h
  · have hle2 : 2 ^ k ≤ 2 ^ 62 := Nat.pow_le_pow_right (by norm_num) (by omega)
    have hpos : 0 < 2 ^ k := Nat.pos_of_ne_zero (by simp)
    simp only [h, if_true]
    generalize 2 ^ k = e at *
    simp only [show (0 = 1) = False by simp, decide_false, Bool.false_eq_true, if_false]
    constructor
    · constructor
      · intro hlt
        omega
      · intro hlt
        omega
    · intro hlt
      omega
  · have hpos : 2 ≤ 2 ^ k := by
      calc 2 = 2 ^ 1 := rfl
        _ ≤ 2 ^ k := Nat.pow_le_pow_right (by norm_num) (by omega)
    simp only [h]
    generalize 2 ^ k = e at *
    simp only [show (1 = 0) = False by simp, if_false, decide_true, if_true]
    constructor
    · constructor
      · intro hlt
        omega
      · intro hlt
        omega
    · intro hlt
      omega

theorem shortMode2R_eq {num index : Nat} (hn : num ≤ 2 ^ 63) (hi : index < num) (count : Nat) :
    shortMode2R num index count = .ok (alternatingList num index count) := by
  have key : ∀ k, ∃ flag : Bool, forUp k (fun i (s : List Nat × Bool × Bool) =>
      if s.2.2 then pure s
      else do
        let pw1 ← wpow2 i
        let dis1 := wsub 1 pw1
        let pw2 ← wpow2 i
        let dis2 := (1 + pw2) % 2 ^ 64
        let idx := if s.2.1 = true then wsub index dis1 else wsub index dis2
        if idx ≥ num then pure (s.1, !s.2.1, true)
        else pure (s.1 ++ [idx], !s.2.1, false)) ([], false, false) =
        (.ok (alternatingList num index k, flag, decide (¬ ∀ i < k, AltIn num index i)) : R _) ∧
      ((∀ i < k, AltIn num index i) → flag = decide (k % 2 = 1)) := by
    intro k
    induction k with
    | zero => exact ⟨false, by simp [forUp, alternatingList], fun _ => rfl⟩
    | succ k ih =>
      obtain ⟨flag, h1, h2⟩ := ih
      rw [forUp_succ, h1, bind_ok]
      by_cases ha : ∀ i < k, AltIn num index i
      · have hk := altIn_bound hn ha
        obtain ⟨s1, s2⟩ := altStep (num := num) (index := index) hn hi hk
        have hflag := h2 ha
        subst hflag
        have hd : decide (¬ ∀ i < k, AltIn num index i) = false := by simpa using ha
        rw [hd]
        simp only [Bool.false_eq_true, if_false]
        rw [wpow2_low (by omega), bind_ok, bind_ok]
        by_cases hin : AltIn num index k
        · have hall : ∀ i < k + 1, AltIn num index i := fun i hi => by
            rcases Nat.lt_succ_iff_lt_or_eq.mp hi with h | h
            exacts [ha i h, h ▸ hin]
          rw [if_neg (by have := s1.mpr hin; omega), s2 hin, alternatingList_succ, if_pos hall]
          refine ⟨decide ((k + 1) % 2 = 1), ?_, fun _ => rfl⟩
          · have hd' : decide (¬ ∀ i < k + 1, AltIn num index i) = false := by simpa using hall
            rw [hd', pure_eq_ok]
            congr 3
            rcases Nat.mod_two_eq_zero_or_one k with h | h
            · rw [show (k + 1) % 2 = 1 by omega, h]; rfl
            · rw [show (k + 1) % 2 = 0 by omega, h]; rfl
        · have hnall : ¬ ∀ i < k + 1, AltIn num index i := fun h => hin (h k (by omega))
          rw [if_pos (by by_contra hc; exact hin (s1.mp (by omega))), alternatingList_succ, if_neg hnall]
          refine ⟨!decide (k % 2 = 1), ?_, fun h => absurd h hnall⟩
          have hd' : decide (¬ ∀ i < k + 1, AltIn num index i) = true := by simpa using hnall
          rw [hd', pure_eq_ok]
      · have hd : decide (¬ ∀ i < k, AltIn num index i) = true := by simpa using ha
        have hnall : ¬ ∀ i < k + 1, AltIn num index i := fun h => ha (fun i hi => h i (by omega))
        have hd' : decide (¬ ∀ i < k + 1, AltIn num index i) = true := by simpa using hnall
        refine ⟨flag, ?_, fun h => absurd h hnall⟩
        rw [hd, hd', alternatingList_succ, if_neg hnall]
        rfl
  obtain ⟨flag, h, -⟩ := key count
  unfold shortMode2R
  rw [h]
  rfl

theorem alternatingList_mem {num index count j : Nat} (h : j ∈ alternatingList num index count) :
    ∃ i < count, AltIn num index i ∧ (j : Int) = alternating index i := by
  unfold alternatingList at h
  rw [List.mem_map] at h
  obtain ⟨x, hx, rfl⟩ := h
  have hp := List.all_eq_true.mp List.all_takeWhile x hx
  have hm := (List.takeWhile_prefix _).subset hx
  rw [List.mem_map] at hm
  obtain ⟨i, hi, rfl⟩ := hm
  have hp : 0 ≤ alternating index i ∧ alternating index i < (num : Int) := by simpa using hp
  exact ⟨i, by simpa using hi, hp, by rw [Int.toNat_of_nonneg hp.1]⟩

theorem alternating_ne (index i : Nat) : alternating index i ≠ (index : Int) := by
  unfold alternating
  have hcast : ((2 : Int) ^ i) = ((2 ^ i : Nat) : Int) := by push_cast; rfl
  rw [hcast]
  have hpos : 0 < 2 ^ i := Nat.pos_of_ne_zero (by simp)
  split
  · generalize 2 ^ i = e at *
    omega
  · next h =>
    have : 2 ≤ 2 ^ i := by
      calc 2 = 2 ^ 1 := rfl
        _ ≤ 2 ^ i := Nat.pow_le_pow_right (by norm_num) (by omega)
    generalize 2 ^ i = e at *
    omega

theorem shortMode2_agrees {num index count : Nat} (hn : num ≤ 2 ^ 63) (hi : index < num) {l : List Nat}
    (h : shortMode2 num index count = .ok l) : shortMode2R num index count = .ok l := by
  have step : ∀ (k : Nat) (s t : List Nat × Bool × Bool),
      (if s.2.2 then pure s
      else do
        let pw1 ← pow2! k
        let dis1 ← sub! 1 pw1
        let pw2 ← pow2! k
        let dis2 := 1 + pw2
        let idx ← (if s.2.1 = true then sub! index dis1 else sub! index dis2 : R Nat)
        if idx ≥ num then pure (s.1, !s.2.1, true)
        else pure (s.1 ++ [idx], !s.2.1, false) : R (List Nat × Bool × Bool)) = .ok t →
      (if s.2.2 then pure s
      else do
        let pw1 ← wpow2 k
        let dis1 := wsub 1 pw1
        let pw2 ← wpow2 k
        let dis2 := (1 + pw2) % 2 ^ 64
        let idx := if s.2.1 = true then wsub index dis1 else wsub index dis2
        if idx ≥ num then pure (s.1, !s.2.1, true)
        else pure (s.1 ++ [idx], !s.2.1, false) : R (List Nat × Bool × Bool)) = .ok t := by
    intro k s t h
    by_cases hs : s.2.2 = true
    · rw [if_pos hs] at h ⊢; exact h
    · rw [if_neg hs] at h ⊢
      unfold pow2! at h
      split at h
      · next hk =>
        rw [bind_ok, bind_eq_ok] at h
        obtain ⟨d1, hd1, h⟩ := h
        rw [bind_ok, bind_eq_ok] at h
        obtain ⟨idx, hidx, h⟩ := h
        unfold sub! at hd1
        split at hd1
        · next h1 =>
          have hpos : 0 < 2 ^ k := Nat.pos_of_ne_zero (by simp)
          have hone : 2 ^ k = 1 := by omega
          rw [wpow2_low hk, bind_ok, bind_ok]
          rw [hone] at hidx hd1 ⊢
          have hd1 := (Except.ok.inj hd1).symm
          have : idx = (if s.2.1 = true then wsub index (wsub 1 1) else wsub index ((1 + 1) % 2 ^ 64)) := by
            unfold sub! at hidx
            unfold wsub
            split at hidx
            · next hf =>
              rw [if_pos hf]
              split at hidx
              · have := (Except.ok.inj hidx).symm; omega
              · cases hidx
            · next hf =>
              rw [if_neg hf]
              split at hidx
              · have := (Except.ok.inj hidx).symm; omega
              · cases hidx
          simp only
          rw [← this]
          exact h
        · cases hd1
      · cases h
  unfold shortMode2 at h
  rw [bind_eq_ok] at h
  obtain ⟨s, hs, h⟩ := h
  unfold shortMode2R
  rw [forUp_mono (fun k _ s t => step k s t) hs, bind_ok]
  exact h

theorem shortDepend_agrees {num index count mode : Nat} (hn : num ≤ 2 ^ 63) (hi : index < num) {l : List Nat}
    (h : shortDepend num index count mode = .ok l) : shortDependR num index count mode = .ok l := by
  unfold shortDepend at h
  unfold shortDependR
  split at h
  · next m => rw [if_pos m]; exact h
  · next m =>
    rw [if_neg m]
    split at h
    · next m => rw [if_pos m]; exact shortMode2_agrees hn hi h
    · next m => rw [if_neg m]; exact h

/-! ### Tables -/

theorem table_mono {f g : Nat → R (List Nat)} {n : Nat} {t : List (List Nat)}
    (h : ∀ i < n, ∀ l, f i = .ok l → g i = .ok l)
    (ht : forUp n (fun idx acc => do
      let cur ← f idx
      pure (acc ++ [cur])) ([] : List (List Nat)) = .ok t) :
    forUp n (fun idx acc => do
      let cur ← g idx
      pure (acc ++ [cur])) ([] : List (List Nat)) = .ok t := by
  refine forUp_mono (fun k hk s u hf => ?_) ht
  rw [bind_eq_ok] at hf
  obtain ⟨l, hl, hf⟩ := hf
  rw [h k hk l hl, bind_ok]
  exact hf

theorem createLongDepend_agrees {num count mode : Nat} {t : List (List Nat)}
    (h : createLongDepend num count mode = .ok t) : createLongDependR num count mode = .ok t :=
  table_mono (fun _ _ _ hl => longDepend_agrees hl) h

theorem createShortDepend_agrees {num count mode : Nat} (hn : num ≤ 2 ^ 63) {t : List (List Nat)}
    (h : createShortDepend num count mode = .ok t) : createShortDependR num count mode = .ok t :=
  table_mono (fun _ hi _ hl => shortDepend_agrees hn hi hl) h

theorem idxsLOf_agrees {params : PosPara} {n : Nat} {t : List (List Nat)} (h : idxsLOf params n = .ok t) :
    idxsLOfR params n = .ok t := by
  unfold idxsLOf at h
  unfold idxsLOfR
  split at h
  · next m => rw [if_pos m]; exact createLongDepend_agrees h
  · next m => rw [if_neg m]; exact h

theorem idxsSOf_agrees {params : PosPara} {n : Nat} (hn : n ≤ 2 ^ 63) {t : List (List Nat)}
    (h : idxsSOf params n = .ok t) : idxsSOfR params n = .ok t := by
  unfold idxsSOf at h
  unfold idxsSOfR
  split at h
  · next m => rw [if_pos m]; exact createShortDepend_agrees hn h
  · next m => rw [if_neg m]; exact h

theorem longDependR_lt {index count mode : Nat} {l : List Nat} (hc : mode = 2 → count ≤ 2 ^ 32)
    (hi : mode = 3 → index ≤ 10 * 2 ^ 32) (h : longDependR index count mode = .ok l) : ∀ j ∈ l, j < index := by
  unfold longDependR at h
  split at h
  · next m =>
    have : longDepend index count 1 = .ok l := by unfold longDepend; rw [if_pos rfl]; exact h
    exact longDepend_lt this
  · split at h
    · next m =>
      rw [longMode2R_eq _ _ (hc m)] at h
      intro j hj
      rw [← Except.ok.inj h] at hj
      exact wrappedPowers_lt hj
    · split at h
      · next m =>
        rw [longMode3R_eq _ (hi m)] at h
        intro j hj
        rw [← Except.ok.inj h] at hj
        exact wrappedPowers_lt hj
      · cases h
        intro j hj
        simp at hj

/-- Sizes that are no restriction in practice: they keep the exponent of two below 2^32. -/
def ReleaseSizes (params : PosPara) (n : Nat) : Prop :=
  (params.modeL = 2 → params.cntL ≤ 2 ^ 32) ∧ n ≤ 10 * 2 ^ 32

theorem idxsLOfR_longOk {params : PosPara} {n : Nat} (hz : ReleaseSizes params n) {t : List (List Nat)}
    (h : idxsLOfR params n = .ok t) : LongOk t := by
  unfold idxsLOfR at h
  split at h
  · obtain ⟨hl, hs⟩ := table_spec h
    intro i l hil
    obtain ⟨hi, rfl⟩ := List.getElem?_eq_some_iff.mp hil
    exact longDependR_lt hz.1 (fun _ => by have := hz.2; omega) (hs i hi)
  · cases h
    intro i l hl
    simp at hl

theorem idxsSOfR_shortOk {params : PosPara} {n : Nat} (hn : n ≤ 2 ^ 63) {t : List (List Nat)}
    (h : idxsSOfR params n = .ok t) : ShortOk t := by
  unfold idxsSOfR at h
  split at h
  · next hm =>
    by_cases m2 : params.modeS = 2
    · obtain ⟨hl, hs⟩ := table_spec h
      intro i l hil hin
      obtain ⟨hi, rfl⟩ := List.getElem?_eq_some_iff.mp hil
      have := hs i hi
      unfold shortDependR at this
      rw [if_neg (by omega), if_pos m2, shortMode2R_eq hn (by omega)] at this
      rw [← Except.ok.inj this] at hin
      obtain ⟨e, -, -, he⟩ := alternatingList_mem hin
      exact alternating_ne i e he.symm
    · have : createShortDepend n params.cntS params.modeS = .ok t := by
        refine table_mono (f := fun i => shortDependR n i params.cntS params.modeS) (fun i _ l hl => ?_) h
        unfold shortDependR at hl
        unfold shortDepend
        rw [if_neg m2] at hl ⊢
        exact hl
      exact createShortDepend_shortOk this
  · cases h
    intro i l hl
    simp at hl

/-- Shrinking the range of the rule without losing one of its positions. -/
theorem alternatingList_shrink {n c index count : Nat} (hcn : c ≤ n)
    (hl : ∀ d ∈ alternatingList n index count, d < c) :
    alternatingList c index count = alternatingList n index count := by
  induction count with
  | zero => rfl
  | succ k ih =>
    have hle : ∀ i, AltIn c index i → AltIn n index i := fun i h => ⟨h.1, lt_of_lt_of_le h.2 (by exact_mod_cast hcn)⟩
    rw [alternatingList_succ] at hl ⊢
    rw [alternatingList_succ]
    by_cases hall : ∀ i < k + 1, AltIn n index i
    · rw [if_pos hall] at hl ⊢
      have hk := ih (fun d hd => hl d (List.mem_append_left _ hd))
      have hck : ∀ m, m ≤ k + 1 → ∀ i < m, AltIn c index i := by
        intro m
        induction m with
        | zero => intro _ i hi; omega
        | succ m ihm =>
          intro hm i hi
          rcases Nat.lt_succ_iff_lt_or_eq.mp hi with h | h
          · exact ihm (by omega) i h
          · subst h
            refine ⟨(hall i (by omega)).1, ?_⟩
            have hmem : (alternating index i).toNat ∈ alternatingList n index k ++ [(alternating index k).toNat] := by
              rcases Nat.lt_succ_iff_lt_or_eq.mp (show i < k + 1 by omega) with h' | h'
              · apply List.mem_append_left
                unfold alternatingList
                have : ((List.range k).map (alternating index)).takeWhile (fun x => decide (0 ≤ x ∧ x < (n : Int))) =
                    (List.range k).map (alternating index) := by
                  rw [List.takeWhile_eq_self_iff]
                  intro x hx
                  rw [List.mem_map] at hx
                  obtain ⟨e, he, rfl⟩ := hx
                  have := hall e (by have := List.mem_range.mp he; omega)
                  simpa [AltIn] using this
                rw [this]
                exact List.mem_map_of_mem (List.mem_map_of_mem (List.mem_range.mpr h'))
              · rw [h']; simp
            have := hl _ hmem
            have h0 := (hall i (by omega)).1
            omega
      rw [if_pos (hck (k + 1) (Nat.le_refl _)), hk]
    · rw [if_neg hall] at hl ⊢
      rw [if_neg (fun h => hall (fun i hi => hle i (h i hi))), ih hl]

theorem short_tables_agreeR {params : PosPara} {n c : Nat} (hn : n ≤ 2 ^ 63)
    {S : List (List Nat)} (hS : idxsSOfR params n = .ok S)
    (huse : params.modeS ≠ 0 → ∀ i < c, ∃ l, S[i]? = some l ∧ ∀ d ∈ l, d < c) :
    ∃ T, idxsSOfR params c = .ok T ∧ ((∀ i < c, S[i]? = T[i]?) ∨ params.modeS = 0) := by
  by_cases h0 : params.modeS = 0
  · exact ⟨[], by unfold idxsSOfR; rw [if_neg (by simp [h0])]; rfl, Or.inr h0⟩
  · have huse := huse h0
    unfold idxsSOfR at hS ⊢
    rw [if_pos h0] at hS ⊢
    unfold createShortDependR at hS ⊢
    obtain ⟨hlen, hget⟩ := table_spec hS
    have hcn : c ≤ n := by
      by_contra hcn
      obtain ⟨l, hl, -⟩ := huse n (by omega)
      rw [List.getElem?_eq_none (by omega)] at hl
      cases hl
    have hkey : ∀ i (hi : i < c), shortDependR c i params.cntS params.modeS = .ok (S[i]'(by omega)) := by
      intro i hi
      obtain ⟨l, hl, hd⟩ := huse i hi
      have hSi : S[i]'(by omega) = l := by
        rw [List.getElem?_eq_getElem (by omega)] at hl
        exact Option.some.inj hl
      have h1 := hget i (by omega)
      rw [hSi] at h1 ⊢
      unfold shortDependR at h1 ⊢
      split
      · next hm => rw [if_pos hm] at h1; exact shortMode1_shrink hi hcn h1 hd
      · next hm =>
        rw [if_neg hm] at h1
        split
        · next hm2 =>
          rw [if_pos hm2, shortMode2R_eq hn (by omega)] at h1
          rw [shortMode2R_eq (by omega) hi, ← Except.ok.inj h1]
          rw [← Except.ok.inj h1] at hd
          rw [alternatingList_shrink hcn hd]
        · next hm2 => rw [if_neg hm2] at h1; exact h1
    obtain ⟨T, hT⟩ := table_ok (f := fun i => shortDependR c i params.cntS params.modeS) (n := c)
      (fun i hi => ⟨_, hkey i hi⟩)
    refine ⟨T, hT, Or.inl ?_⟩
    obtain ⟨hlen', hget'⟩ := table_spec hT
    intro i hi
    rw [List.getElem?_eq_getElem (by omega), List.getElem?_eq_getElem (by omega)]
    have := hget' i (by omega)
    rw [hkey i hi] at this
    rw [Except.ok.inj this]

theorem batchIdxsSR_eq {params : PosPara} {p n c : Nat} (cfg : Config params p n c) :
    batchIdxsSR params = idxsSOfR params c := by
  unfold batchIdxsSR idxsSOfR
  have : div! params.blockL params.unitL = .ok c := by
    rw [div!_of_pos cfg.unit_pos, cfg.block, Nat.mul_div_cancel _ cfg.unit_pos]
  rw [this]
  rfl

/-! ### Sealing -/

theorem sealFileR_eq {H : Bytes → Bytes} {params : PosPara} {p n c : Nat} (cfg : Config params p n c)
    {file : Bytes} {iv : Bytes} {st : SealState} (h : sealFileR H params file (p : Int) iv = .ok st) :
    ∃ idxsL idxsS, idxsLOfR params n = .ok idxsL ∧ idxsSOfR params n = .ok idxsS ∧
      forUp n (fun idx2 s => sealBlock H params (p : Int) iv n idxsL idxsS idx2 s)
        { file := file, ids := List.replicate n [], log := [] } = .ok st := by
  unfold sealFileR at h
  rw [cfg.div, bind_ok, bind_eq_ok] at h
  obtain ⟨idxsL, hl, h⟩ := h
  rw [bind_eq_ok] at h
  obtain ⟨idxsS, hs, h⟩ := h
  exact ⟨idxsL, idxsS, hl, hs, h⟩

theorem batchUnsealR_of {H : Bytes → Bytes} {params : PosPara} {key : Int} {iv : Bytes}
    {idxsS : List (List Nat)} (hs : batchIdxsSR params = .ok idxsS) {idxs : List Nat}
    {blocks : List (List Bytes)} {befores : List Bytes} {deps : List (List (List Bytes))}
    (h1 : blocks.length = idxs.length) (h2 : befores.length = idxs.length)
    (h3 : deps.length = idxs.length) {outs : List (List Bytes)} (h4 : outs.length = idxs.length)
    (h : ∀ i (hi : i < idxs.length), unsealRoundsLoop H params key iv idxsS (befores[i]'(by omega))
      (deps[i]'(by omega)) (blocks[i]'(by omega)).length idxs[i] (blocks[i]'(by omega)) =
        .ok (outs[i]'(by omega))) :
    batchUnsealR H params idxs blocks befores deps key iv = .ok outs := by
  unfold batchUnsealR
  rw [hs, bind_ok]
  apply forUp_put (by omega)
  intro i hi s _ hsi
  rw [batchBlock_eq (b := befores[i]'(by omega)) (d := deps[i]'(by omega)) (idx2 := idxs[i]'(by omega))
    (List.getElem?_eq_getElem _) (List.getElem?_eq_getElem _) (List.getElem?_eq_getElem _) hsi,
    h i (by omega), bind_ok]

end PoS
