import Verif.Properties.UnitSize
import Verif.Model.Python
import Mathlib.GroupTheory.SpecificGroups.Cyclic
import Mathlib.RingTheory.IntegralDomain
import Mathlib.FieldTheory.Finite.Basic
import Mathlib.Data.Set.Card
import Mathlib.Tactic.Ring
import Mathlib.Tactic.NormNum

/-
C99: the modular exponentiation of test_modpow.py, which halves the exponent in floating point.
-/

set_option linter.unusedSectionVars false
set_option exponentiation.threshold 1100
set_option maxRecDepth 10000

namespace PoS

/-- The rounded half: any number of 53 bits nearest to `t`, ties to even. -/
theorem pyHalf_round {t m s : Nat} (h1 : 2 ^ 52 * 2 ^ s ≤ t) (h2 : t < 2 ^ 53 * 2 ^ s) (hs : 0 < s)
    (hm1 : 2 * t ≤ 2 * (m * 2 ^ s) + 2 ^ s) (hm2 : 2 * (m * 2 ^ s) ≤ 2 * t + 2 ^ s)
    (htie : 2 * t = 2 * (m * 2 ^ s) + 2 ^ s ∨ 2 * (m * 2 ^ s) = 2 * t + 2 ^ s → m % 2 = 0) :
    pyHalf t = if 2 ^ 1024 ≤ m * 2 ^ (s - 1) then .error .overflow else .ok (m * 2 ^ (s - 1)) := by
  have h53 : 2 ^ 53 ≤ t := by
    have h : 2 ^ 1 ≤ 2 ^ s := Nat.pow_le_pow_right (by norm_num) hs
    calc 2 ^ 53 = 2 ^ 52 * 2 ^ 1 := by norm_num
      _ ≤ 2 ^ 52 * 2 ^ s := Nat.mul_le_mul_left _ h
      _ ≤ t := h1
  have hlog : Nat.log2 t = 52 + s := by
    rw [Nat.log2_eq_iff (by omega), Nat.pow_add, show 52 + s + 1 = 53 + s by omega, Nat.pow_add]
    exact ⟨h1, h2⟩
  unfold pyHalf
  rw [if_neg (by omega)]
  simp only [hlog, Nat.add_sub_cancel_left]
  have hB : 0 < 2 ^ s := Nat.two_pow_pos s
  have hdm := Nat.div_add_mod t (2 ^ s)
  have hr := Nat.mod_lt t hB
  generalize hBB : 2 ^ s = B at *
  set q := t / B with hq
  set r := t % B with hrr
  clear_value q r
  have hmq : m = q ∨ m = q + 1 := by
    rcases Nat.lt_trichotomy m q with h | h | h
    · have h3 : (m + 1) * B ≤ B * q := by rw [Nat.mul_comm B]; exact Nat.mul_le_mul_right _ h
      rw [Nat.add_mul, Nat.one_mul] at h3
      omega
    · exact .inl h
    · right
      by_contra hne
      have h3 : B * (q + 2) ≤ m * B := by rw [Nat.mul_comm m]; exact Nat.mul_le_mul_left _ (by omega)
      rw [Nat.mul_add] at h3
      omega
  have hif : (if B < 2 * r ∨ (2 * r = B ∧ q % 2 = 1) then q + 1 else q) = m := by
    rcases hmq with h | h
    · have h4 : m * B = B * q := by rw [h, Nat.mul_comm]
      rw [if_neg]
      · exact h.symm
      · rintro (h5 | ⟨h5, h6⟩)
        · omega
        · have := htie (by left; omega)
          omega
    · have h4 : m * B = B * q + B := by rw [h, Nat.mul_comm, Nat.mul_add, Nat.mul_one]
      rw [if_pos]
      · exact h.symm
      · rcases Nat.lt_or_ge B (2 * r) with h5 | h5
        · exact .inl h5
        · right
          have h6 : 2 * r = B := by omega
          have := htie (by right; omega)
          omega
  rw [hif]

theorem pyHalf_exact {t k : Nat} (ht : t < 2 ^ 1024) (h : ∃ m, m ≤ 2 ^ 53 ∧ t = m * 2 ^ k) : pyHalf t = .ok (t / 2) := by
  by_cases h53 : t < 2 ^ 53
  · unfold pyHalf; rw [if_pos h53]
  · obtain ⟨m, hm, hmt⟩ := h
    have h0 : t ≠ 0 := by omega
    have hl := Nat.log2_eq_iff h0 (k := Nat.log2 t)
    obtain ⟨hl1, hl2⟩ := hl.1 rfl
    have hl3 : 53 ≤ Nat.log2 t := (Nat.le_log2 h0).2 (by omega)
    obtain ⟨s, hs⟩ : ∃ s, Nat.log2 t = 52 + s := ⟨Nat.log2 t - 52, by omega⟩
    rw [hs] at hl1 hl2 hl3
    have hs0 : 0 < s := by omega
    rw [Nat.pow_add] at hl1
    rw [show 52 + s + 1 = 53 + s by omega, Nat.pow_add] at hl2
    -- the power of two divides t
    have hdvd : 2 ^ s ∣ t := by
      rcases Nat.lt_or_ge m (2 ^ 53) with hlt | hge
      · have : s - 1 < k := by
          by_contra hc
          have h3 : 2 ^ k ≤ 2 ^ (s - 1) := Nat.pow_le_pow_right (by norm_num) (by omega)
          have h4 : t < 2 ^ 53 * 2 ^ (s - 1) := by
            rw [hmt]
            exact Nat.mul_lt_mul_of_lt_of_le hlt h3 (Nat.two_pow_pos _)
          have h5 : 2 ^ 53 * 2 ^ (s - 1) = 2 ^ 52 * 2 ^ s := by
            rw [← Nat.pow_add, ← Nat.pow_add]; congr 1; omega
          omega
        rw [hmt]
        exact Dvd.dvd.mul_left (Nat.pow_dvd_pow 2 (by omega)) m
      · have h3 : m = 2 ^ 53 := by omega
        rw [hmt, h3, ← Nat.pow_add]
        apply Nat.pow_dvd_pow
        by_contra hc
        have h4 : t < 2 ^ 52 * 2 ^ s := by
          rw [hmt, h3, ← Nat.pow_add, ← Nat.pow_add]
          exact Nat.pow_lt_pow_right (by norm_num) (by omega)
        omega
    obtain ⟨a, ha⟩ := hdvd
    have hB : 0 < 2 ^ s := Nat.two_pow_pos s
    have ha' : a * 2 ^ s = t := by rw [ha, Nat.mul_comm]
    rw [pyHalf_round (m := a) hl1 hl2 hs0 (by omega) (by omega) (fun h => by omega)]
    have hhalf : a * 2 ^ (s - 1) = t / 2 := by
      have h3 : 2 ^ s = 2 ^ (s - 1) * 2 := by rw [← Nat.pow_succ]; congr 1; omega
      rw [← ha', h3, ← Nat.mul_assoc, Nat.mul_div_cancel _ (by norm_num)]
    rw [hhalf, if_neg (by omega)]

theorem fmod_eq_emod' {p : Int} (hp : 0 < p) (a : Int) : a.fmod p = a % p := Int.fmod_eq_emod_of_nonneg a hp.le

/-- With an exponent of at most 53 significant bits every halving is exact. -/
theorem fastModPowPyLoop_exact {p : Int} (hp : 0 < p) : ∀ (fuel : Nat) (x : Int) (t : Nat) (res : Int) (k : Nat),
    t ≤ fuel → 0 < t → t < 2 ^ 1024 → (∃ m, m ≤ 2 ^ 53 ∧ t = m * 2 ^ k) →
    fastModPowPyLoop p fuel x t res = .ok ((res * x ^ t) % p) := by
  intro fuel
  induction fuel with
  | zero => intro x t res k h1 h2; omega
  | succ fuel ih =>
    intro x t res k hf h0 hlt hk
    have hp0 : p ≠ 0 := by omega
    rw [fastModPowPyLoop, if_neg (by omega), pyHalf_exact hlt hk]
    have hk2 : ∃ m, m ≤ 2 ^ 53 ∧ t / 2 = m * 2 ^ (k - 1) := by
      obtain ⟨m, hm, hmt⟩ := hk
      rcases Nat.eq_zero_or_pos k with h | h
      · subst h
        exact ⟨m / 2, by omega, by rw [hmt]; simp⟩
      · refine ⟨m, hm, ?_⟩
        rw [hmt, show 2 ^ k = 2 ^ (k - 1) * 2 by rw [← Nat.pow_succ]; congr 1; omega, ← Nat.mul_assoc,
          Nat.mul_div_cancel _ (by norm_num)]
    have hx : ∀ n : Nat, ((x * x) % p) ^ n % p = x ^ (2 * n) % p := fun n => by
      rw [pow_mul, pow_two]
      exact (Int.mod_modEq (x * x) p).pow n
    have hmul : ∀ (a : Int) (n : Nat), (a * ((x * x) % p) ^ n) % p = (a * x ^ (2 * n)) % p := fun a n => by
      rw [Int.mul_emod, hx, ← Int.mul_emod]
    rcases Nat.mod_two_eq_zero_or_one t with he | ho
    · rw [if_neg (by omega)]
      simp only [if_neg hp0, bind_ok, fmod_eq_emod' hp]
      rw [ih _ _ _ (k - 1) (by omega) (by omega) (by omega) hk2, hmul, show 2 * (t / 2) = t by omega]
    · rw [if_pos ho]
      simp only [if_neg hp0, bind_ok, fmod_eq_emod' hp]
      by_cases h1 : t / 2 = 0
      · have : t = 1 := by omega
        subst this
        rw [h1, pow_one]
        cases fuel <;> simp [fastModPowPyLoop]
      · rw [ih _ _ _ (k - 1) (by omega) (by omega) (by omega) hk2, hmul, Int.mul_emod, Int.emod_emod_of_dvd _ (dvd_refl p),
          ← Int.mul_emod, Int.mul_assoc, ← pow_succ', show 2 * (t / 2) + 1 = t by omega]

theorem pyHalf_lt {t h : Nat} (h0 : 0 < t) (hh : pyHalf t = .ok h) : h < t := by
  unfold pyHalf at hh
  by_cases h53 : t < 2 ^ 53
  · rw [if_pos h53] at hh
    cases hh
    omega
  · rw [if_neg h53] at hh
    simp only at hh
    have hl3 : 53 ≤ Nat.log2 t := (Nat.le_log2 (by omega)).2 (by omega)
    obtain ⟨s, hs⟩ : ∃ s, Nat.log2 t = 52 + s := ⟨Nat.log2 t - 52, by omega⟩
    rw [hs, Nat.add_sub_cancel_left] at hh
    obtain ⟨hl1, -⟩ := (Nat.log2_eq_iff (by omega)).1 hs
    rw [Nat.pow_add] at hl1
    have hq := Nat.div_mul_le_self t (2 ^ s)
    have hs2 : 2 ^ s = 2 ^ (s - 1) * 2 := by rw [← Nat.pow_succ]; congr 1; omega
    generalize hq' : (if 2 ^ s < 2 * (t % 2 ^ s) ∨ (2 * (t % 2 ^ s) = 2 ^ s ∧ t / 2 ^ s % 2 = 1) then
      t / 2 ^ s + 1 else t / 2 ^ s) = q' at hh
    have hb : q' ≤ t / 2 ^ s + 1 := by rw [← hq']; split <;> omega
    split at hh
    · cases hh
    · injection hh with hh
      subst hh
      have h3 : t / 2 ^ s * 2 ^ (s - 1) * 2 ≤ t := by rw [Nat.mul_assoc, ← hs2]; exact hq
      have h4 : q' * 2 ^ (s - 1) ≤ (t / 2 ^ s + 1) * 2 ^ (s - 1) := Nat.mul_le_mul_right _ hb
      rw [Nat.add_mul, Nat.one_mul] at h4
      omega

/-- The first halving decides everything: afterwards the exponent has 53 significant bits. -/
theorem fastModPowPy_half (x p : Int) (hp : 0 < p) (t h : Nat) (h53 : 2 ^ 53 ≤ t) (hh : pyHalf t = .ok h) :
    fastModPowPy x (t : Int) p = .ok (x ^ (t % 2 + 2 * h) % p) := by
  have hp0 : p ≠ 0 := by omega
  have hlt := pyHalf_lt (by omega) hh
  have hshape : 0 < h ∧ h < 2 ^ 1024 ∧ ∃ k m, m ≤ 2 ^ 53 ∧ h = m * 2 ^ k := by
    unfold pyHalf at hh
    rw [if_neg (by omega)] at hh
    simp only at hh
    have hl3 : 53 ≤ Nat.log2 t := (Nat.le_log2 (by omega)).2 (by omega)
    obtain ⟨s, hs⟩ : ∃ s, Nat.log2 t = 52 + s := ⟨Nat.log2 t - 52, by omega⟩
    rw [hs, Nat.add_sub_cancel_left] at hh
    obtain ⟨hl1, hl2⟩ := (Nat.log2_eq_iff (by omega)).1 hs
    rw [Nat.pow_add] at hl1
    rw [show 52 + s + 1 = 53 + s by omega, Nat.pow_add] at hl2
    have hq1 : t / 2 ^ s < 2 ^ 53 := Nat.div_lt_of_lt_mul (by rwa [Nat.mul_comm])
    have hq2 : 2 ^ 52 ≤ t / 2 ^ s := (Nat.le_div_iff_mul_le (Nat.two_pow_pos s)).2 hl1
    generalize hq' : (if 2 ^ s < 2 * (t % 2 ^ s) ∨ (2 * (t % 2 ^ s) = 2 ^ s ∧ t / 2 ^ s % 2 = 1) then
      t / 2 ^ s + 1 else t / 2 ^ s) = q' at hh
    have hb : q' ≤ t / 2 ^ s + 1 ∧ t / 2 ^ s ≤ q' := by rw [← hq']; split <;> omega
    split at hh
    · cases hh
    · rename_i hov
      injection hh with hh
      subst hh
      exact ⟨Nat.mul_pos (by omega) (Nat.two_pow_pos _), by omega, s - 1, q', by omega, rfl⟩
  obtain ⟨hpos, hlim, k, hk⟩ := hshape
  have hfm : fastModPowPy x (t : Int) p = fastModPowPyLoop p t x t 1 := by
    unfold fastModPowPy; simp
  rw [hfm]
  obtain ⟨fuel, hfuel⟩ : ∃ fuel, t = fuel + 1 := ⟨t - 1, by omega⟩
  have hx : ∀ n : Nat, ((x * x) % p) ^ n % p = x ^ (2 * n) % p := fun n => by
    rw [pow_mul, pow_two]
    exact (Int.mod_modEq (x * x) p).pow n
  have hmul : ∀ (a : Int) (n : Nat), (a * ((x * x) % p) ^ n) % p = (a * x ^ (2 * n)) % p := fun a n => by
    rw [Int.mul_emod, hx, ← Int.mul_emod]
  conv_lhs => rw [hfuel]
  rw [fastModPowPyLoop, if_neg (by omega), ← hfuel, hh]
  rcases Nat.mod_two_eq_zero_or_one t with he | ho
  · rw [if_neg (by omega)]
    simp only [if_neg hp0, bind_ok, fmod_eq_emod' hp]
    rw [fastModPowPyLoop_exact hp _ _ _ _ k (by omega) hpos hlim hk, hmul, he, Int.one_mul, Nat.zero_add]
  · rw [if_pos ho]
    simp only [if_neg hp0, bind_ok, fmod_eq_emod' hp]
    rw [fastModPowPyLoop_exact hp _ _ _ _ k (by omega) hpos hlim hk, hmul, ho, Int.mul_emod,
      Int.emod_emod_of_dvd _ (dvd_refl p), ← Int.mul_emod, Int.one_mul, ← pow_succ', Nat.add_comm 1]

/-- Below 2^53 the function is the ordinary power. -/
theorem C99_exact (x p : Int) (hp : 1 < p) (t : Nat) (ht : t ≤ 2 ^ 53) :
    fastModPowPy x (t : Int) p = .ok (x ^ t % p) := by
  have hfm : fastModPowPy x (t : Int) p = fastModPowPyLoop p t x t 1 := by
    unfold fastModPowPy; simp
  rw [hfm]
  rcases Nat.eq_zero_or_pos t with h | h
  · subst h
    rw [pow_zero, Int.emod_eq_of_lt (by norm_num) hp]
    rfl
  · have hlim : t < 2 ^ 1024 := lt_of_le_of_lt ht (by norm_num)
    rw [fastModPowPyLoop_exact (by omega) t x t 1 0 le_rfl h hlim ⟨t, ht, by simp⟩, Int.one_mul]

/-- From 2^53 on the exponent actually used is not `t`: it is the number with 53 significant bits
nearest to `t` (the even one of two), plus one if `t` is odd. -/
theorem C99_exponent (x p : Int) (hp : 0 < p) (t m s : Nat) (hs : 0 < s)
    (h1 : 2 ^ 52 * 2 ^ s ≤ t) (h2 : t < 2 ^ 53 * 2 ^ s)
    (hm1 : 2 * t ≤ 2 * (m * 2 ^ s) + 2 ^ s) (hm2 : 2 * (m * 2 ^ s) ≤ 2 * t + 2 ^ s)
    (htie : 2 * t = 2 * (m * 2 ^ s) + 2 ^ s ∨ 2 * (m * 2 ^ s) = 2 * t + 2 ^ s → m % 2 = 0)
    (hlim : t < 2 ^ 1025 - 2 ^ 971) :
    fastModPowPy x (t : Int) p = .ok (x ^ (t % 2 + m * 2 ^ s) % p) := by
  have h53 : 2 ^ 53 ≤ t := by
    have h : 2 ^ 1 ≤ 2 ^ s := Nat.pow_le_pow_right (by norm_num) hs
    calc 2 ^ 53 = 2 ^ 52 * 2 ^ 1 := by norm_num
      _ ≤ 2 ^ 52 * 2 ^ s := Nat.mul_le_mul_left _ h
      _ ≤ t := h1
  have hs2 : 2 ^ s = 2 ^ (s - 1) * 2 := by rw [← Nat.pow_succ]; congr 1; omega
  have hr := pyHalf_round h1 h2 hs hm1 hm2 htie
  have hsl : s ≤ 972 := by
    by_contra hc
    have h3 : 2 ^ 973 ≤ 2 ^ s := Nat.pow_le_pow_right (by norm_num) (by omega)
    have h4 : 2 ^ 52 * 2 ^ 973 ≤ 2 ^ 52 * 2 ^ s := Nat.mul_le_mul_left _ h3
    norm_num at h4 hlim h1
    omega
  have hm53 : m * 2 ^ (s - 1) < 2 ^ 1024 := by
    rcases Nat.lt_or_ge s 972 with h | h
    · have h3 : m ≤ 2 ^ 53 := by
        by_contra hc
        have h4 : (2 ^ 53 + 1) * 2 ^ s ≤ m * 2 ^ s := Nat.mul_le_mul_right _ (by omega)
        rw [Nat.add_mul, Nat.one_mul] at h4
        have := Nat.two_pow_pos s
        omega
      have h4 : 2 ^ (s - 1) ≤ 2 ^ 970 := Nat.pow_le_pow_right (by norm_num) (by omega)
      calc m * 2 ^ (s - 1) ≤ 2 ^ 53 * 2 ^ 970 := Nat.mul_le_mul h3 h4
        _ < 2 ^ 1024 := by norm_num
    · have h3 : s = 972 := by omega
      subst h3
      by_contra hc
      have h4 : 2 ^ 53 ≤ m := by
        by_contra h5
        have h6 : m * 2 ^ (972 - 1) ≤ (2 ^ 53 - 1) * 2 ^ (972 - 1) := Nat.mul_le_mul_right _ (by omega)
        norm_num at h6 hc
        omega
      have h5 : 2 ^ 53 * 2 ^ 972 ≤ m * 2 ^ 972 := Nat.mul_le_mul_right _ h4
      norm_num at h5 hm2 hlim
      omega
  rw [if_neg (by omega)] at hr
  rw [fastModPowPy_half x p hp t _ h53 hr, show 2 * (m * 2 ^ (s - 1)) = m * 2 ^ s by rw [hs2]; ring]

/-- From 2^1025 - 2^971 on, which includes the 2048-bit benchmark, every call ends in an
`OverflowError`. -/
theorem C99_overflow (x p : Int) (hp : p ≠ 0) (t : Nat) (ht : 2 ^ 1025 - 2 ^ 971 ≤ t) :
    fastModPowPy x (t : Int) p = .error .overflow := by
  have h0 : 2 ^ 53 ≤ t := le_trans (by norm_num) ht
  have hov : pyHalf t = .error .overflow := by
    have h1024 : 1024 ≤ Nat.log2 t := (Nat.le_log2 (by omega)).2 (le_trans (by norm_num) ht)
    obtain ⟨s, hs⟩ : ∃ s, Nat.log2 t = 52 + s := ⟨Nat.log2 t - 52, by omega⟩
    obtain ⟨hl1, hl2⟩ := (Nat.log2_eq_iff (by omega)).1 hs
    rw [Nat.pow_add] at hl1
    rw [show 52 + s + 1 = 53 + s by omega, Nat.pow_add] at hl2
    unfold pyHalf
    rw [if_neg (by omega)]
    simp only [hs, Nat.add_sub_cancel_left]
    rw [if_pos]
    have hq2 : 2 ^ 52 ≤ t / 2 ^ s := (Nat.le_div_iff_mul_le (Nat.two_pow_pos s)).2 hl1
    rcases Nat.lt_or_ge 972 s with h | h
    · have h3 : 2 ^ 972 ≤ 2 ^ (s - 1) := Nat.pow_le_pow_right (by norm_num) (by omega)
      calc 2 ^ 1024 = 2 ^ 52 * 2 ^ 972 := by norm_num
        _ ≤ _ := Nat.mul_le_mul (by split <;> omega) h3
    · have h3 : s = 972 := by omega
      subst h3
      norm_num at ht hl2 ⊢
      split <;> omega
  have hfm : fastModPowPy x (t : Int) p = fastModPowPyLoop p t x t 1 := by
    unfold fastModPowPy; simp
  rw [hfm]
  obtain ⟨fuel, hfuel⟩ : ∃ fuel, t = fuel + 1 := ⟨t - 1, by omega⟩
  conv_lhs => rw [hfuel]
  rw [fastModPowPyLoop, if_neg (by omega), ← hfuel, hov]
  simp only [if_neg hp]
  rcases Nat.mod_two_eq_zero_or_one t with he | ho
  · rw [if_neg (by omega)]; rfl
  · rw [if_pos ho]; rfl

/-- Two powers agree modulo a prime for as many bases as the greatest common divisor of `p - 1` and
the difference of the exponents says. -/
theorem card_pow_agree (p : Nat) (hp : p.Prime) (a d : Nat) :
    Set.ncard {x : Int | 0 < x ∧ x < p ∧ x ^ (a + d) % p = x ^ a % p} = (p - 1).gcd d := by
  haveI := Fact.mk hp
  have hset : {x : Int | 0 < x ∧ x < p ∧ x ^ (a + d) % p = x ^ a % p} =
      (fun u : (ZMod p)ˣ => ((u : ZMod p).val : Int)) '' ((powMonoidHom d : (ZMod p)ˣ →* (ZMod p)ˣ).ker : Set (ZMod p)ˣ) := by
    ext x
    simp only [Set.mem_ofPred_eq, Set.mem_image, SetLike.mem_coe, MonoidHom.mem_ker, powMonoidHom_apply]
    have key : ∀ y : Int, (y : ZMod p) ≠ 0 → (y ^ (a + d) % p = y ^ a % p ↔ (y : ZMod p) ^ d = 1) := by
      intro y hy
      rw [show (y ^ (a + d) % (p : Int) = y ^ a % (p : Int)) = (y ^ (a + d) ≡ y ^ a [ZMOD (p : Int)]) from rfl,
        ← ZMod.intCast_eq_intCast_iff]
      push_cast
      rw [pow_add]
      constructor
      · intro h
        exact mul_left_cancel₀ (pow_ne_zero a hy) (by rw [h, mul_one])
      · intro h
        rw [h, mul_one]
    constructor
    · rintro ⟨h0, h1, h2⟩
      have hx : (x : ZMod p) ≠ 0 := by
        intro h
        rw [ZMod.intCast_zmod_eq_zero_iff_dvd] at h
        exact absurd (Int.le_of_dvd h0 h) (by omega)
      refine ⟨Units.mk0 _ hx, ?_, ?_⟩
      · apply Units.ext
        simpa using (key x hx).1 h2
      · simp only [Units.val_mk0]
        rw [ZMod.val_intCast, Int.emod_eq_of_lt h0.le h1]
    · rintro ⟨u, hu, rfl⟩
      have hu0 : (u : ZMod p) ≠ 0 := u.ne_zero
      have hc : (((u : ZMod p).val : Int) : ZMod p) = (u : ZMod p) := by
        rw [Int.cast_natCast, ZMod.natCast_zmod_val]
      refine ⟨?_, ?_, ?_⟩
      · have : (u : ZMod p).val ≠ 0 := by rwa [Ne, ZMod.val_eq_zero]
        omega
      · exact_mod_cast ZMod.val_lt (u : ZMod p)
      · rw [key _ (by rw [hc]; exact hu0), hc, ← Units.val_pow_eq_pow_val, hu, Units.val_one]
  have hinj : Function.Injective (fun u : (ZMod p)ˣ => ((u : ZMod p).val : Int)) := by
    intro u v h
    exact Units.ext (ZMod.val_injective p (Int.ofNat.inj h))
  rw [hset, Set.ncard_image_of_injective _ hinj, ← Nat.card_coe_set_eq]
  have := IsCyclic.card_powMonoidHom_ker (ZMod p)ˣ d
  rw [Nat.card_eq_fintype_card (α := (ZMod p)ˣ), ZMod.card_units] at this
  exact this

theorem right_bases (p : Nat) (hp : p.Prime) (t h a d g : Nat) (h53 : 2 ^ 53 ≤ t) (hh : pyHalf t = .ok h)
    (hd : (t % 2 + 2 * h = a + d ∧ t = a) ∨ (t % 2 + 2 * h = a ∧ t = a + d)) (hg : (p - 1).gcd d = g) :
    Set.ncard {x : Int | 0 < x ∧ x < p ∧ fastModPowPy x (t : Int) p = .ok (x ^ t % p)} = g := by
  have hp0 : (0 : Int) < p := by exact_mod_cast hp.pos
  rw [← hg, ← card_pow_agree p hp a d]
  congr 1
  ext x
  simp only [Set.mem_ofPred_eq, fastModPowPy_half x p hp0 t h h53 hh, Except.ok.injEq]
  rcases hd with ⟨h1, h2⟩ | ⟨h1, h2⟩
  · rw [h1, h2]
  · rw [h1, h2]
    constructor <;> rintro ⟨a1, a2, a3⟩ <;> exact ⟨a1, a2, a3.symm⟩

/-- The calls of the benchmark, exponent (p - 1) / 2.  With the 64- to 512-bit moduli the value
returned is right for two of the p - 1 bases only (1 and p - 1), with the 1024-bit modulus for 54 of
them; with the 2048-bit modulus every call raises. -/
theorem C99_shipped :
    (∀ c ∈ [(P_64, 2), (P_128, 2), (P_256, 2), (P_512, 2), (P_1024, 54)],
      Set.ncard {x : Int | 0 < x ∧ x < c.1 ∧
        fastModPowPy x ((c.1 - 1) / 2) c.1 = .ok (x ^ ((c.1 - 1) / 2).toNat % c.1)} = c.2) ∧
    ∀ x : Int, fastModPowPy x ((P_2048 - 1) / 2) P_2048 = .error .overflow := by
  refine ⟨?_, fun x => ?_⟩
  · intro c hc
    simp only [List.mem_cons, List.not_mem_nil, or_false] at hc
    rcases hc with rfl | rfl | rfl | rfl | rfl
    · exact right_bases 13758676365741467507 prime_P_64 6879338182870733753 3439669091435366912 6879338182870733753 72 2 (by decide +kernel) (by decide +kernel) (by decide +kernel) (by decide +kernel)
    · exact right_bases 284966011836017917039797442435648636163 prime_P_128 142483005918008958519898721217824318081 71241502959004476176282976359263764480 142483005918008952352565952718527528961 6167332768499296789120 2 (by decide +kernel) (by decide +kernel) (by decide +kernel) (by decide +kernel)
    · exact right_bases 79128031240076844063259589759962924441255910968111729611693920152825864722707 prime_P_256 39564015620038422031629794879981462220627955484055864805846960076412932361353 19782007810019211692149417826924394093703972177828510009850415020310473474048 39564015620038422031629794879981462220627955484055864805846960076412932361353 1352669040773867325966779988871601155213853869964208014586744 2 (by decide +kernel) (by decide +kernel) (by decide +kernel) (by decide +kernel)
    · exact right_bases 10711734159436774894171334484137626675507759979749407253125221261168087448899876831488509454695461974257751111853456275453329348448922191916590010377596767 prime_P_512 5355867079718387447085667242068813337753879989874703626562610630584043724449938415744254727347730987128875555926728137726664674224461095958295005188798383 2677933539859193627058369311281497248662464557591441313730763566598845386616010107854813121185793035724740063664609951765280670920970009787107972206297088 5355867079718387254116738622562994497324929115182882627461527133197690773232020215709626242371586071449480127329219903530561341841940019574215944412594177 192968928619505818840428950874691820999101083497386352951217918200034628484976144915679395428597508234196103332382521076384079060776204206 2 (by decide +kernel) (by decide +kernel) (by decide +kernel) (by decide +kernel)
    · exact right_bases 158297696608074679654124946564912202999139663277505984894261981349837992769596165683700437968679604111373729258655046764462137227577322861762501627230418997487671809885760928375348392323002752945263359796693275288611323927303851169352900910708127230034239565388759941444235878668699843286794016470366892082267 e1024_0 79148848304037339827062473282456101499569831638752992447130990674918996384798082841850218984339802055686864629327523382231068613788661430881250813615209498743835904942880464187674196161501376472631679898346637644305661963651925584676450455354063615017119782694379970722117939334349921643397008235183446041133 39574424152018669468347519393855565699548599156258508725717043070415823591109792999388242501088723565571001382204985074640695339833833951706250935061410443668145399377486125053243244155823254329103529904883645145411834564654177396983870623780134789851210940572282326730042422373208145941351671996055906418688 79148848304037338936695038787711131399097198312517017451434086140831647182219585998776485002177447131142002764409970149281390679667667903412501870122820887336290798754972250106486488311646508658207059809767290290823669129308354793967741247560269579702421881144564653460084844746416291882703343992111812837377 890367434494744970100472633326235974995696904534087349202578496843073733982162354924544861864917553232949677934120993527468748943492388611407545106187908214081187707849854867814424620088579347353481992834343570790708709207793794035314697901549815317262033094587933629760693664243071633203756 54 (by decide +kernel) (by decide +kernel) (by decide +kernel) (by decide +kernel)
  · exact C99_overflow x P_2048 (by decide +kernel) 11143680113454411116996409868196472217237521846132823458027965238793822848341012020945410305864417987390495285532919165126920677141933849579635794143050573685218225354073968208319770166186931907013900832387235718177075309157861330679956727681360686512356694629605165557840863874947183952251453775541609643909631545077337625455584303780941147407551438666183184238565060240587464739202502187541727116739204040260128662909462852935733853155802858670565143190859904694956760017559235879290329410577954288873490824083938442288180002391280388366221094957176394429128763686885814799130641498989860227507620488723206330887803 (by decide +kernel)

/-- Just above the exact range: with exponent 2^53 + 3 the power taken is 2^53 + 5. -/
example : fastModPowPy 3 (2 ^ 53 + 3) 1000003 = .ok (3 ^ (2 ^ 53 + 5) % 1000003) := by
  have h := C99_exponent 3 1000003 (by norm_num) (2 ^ 53 + 3) (2 ^ 52 + 2) 1 (by norm_num) (by norm_num) (by norm_num)
    (by norm_num) (by norm_num) (by norm_num) (by decide +kernel)
  norm_num at h ⊢
  exact h

example : fastModPowPy 3 1000 1000003 = .ok (3 ^ 1000 % 1000003) := C99_exact 3 1000003 (by norm_num) 1000 (by norm_num)

end PoS
