import Verif.Properties.Python
import Verif.Proofs.MillerRabin
import Mathlib.Data.Set.Card
import Mathlib.Data.Fintype.Pi
import Mathlib.Data.Fintype.BigOperators

/-
C107: how often the primality test is wrong.
-/

namespace PoS

/-! ### one trial -/

/-- All strong bases are units whose power with one and the same exponent is 1 or -1. -/
theorem strong_exponent {n : Nat} (h2 : 2 < n) (hodd : n % 2 = 1) :
    ∃ E, 2 * E ∣ n - 1 ∧ (∃ w : (ZMod n)ˣ, w ^ E = -1) ∧
      ∀ a, StrongProbable n a → ∃ u ∈ plusMinus n E, (u : ZMod n) = (a : ZMod n) := by
  classical
  have : NeZero n := ⟨by omega⟩
  obtain ⟨t, e1, -, e3⟩ := rmSplit_spec n (n - 1) 0 (by omega) (by
    have := Nat.lt_two_pow_self (n := n); omega)
  generalize (rmSplit n (n - 1) 0).1 = s at e1 e3
  have ht : 0 < t := by
    rcases Nat.eq_zero_or_pos t with h | h
    · rw [h, Nat.pow_zero, Nat.mul_one] at e1; omega
    · exact h
  set P : Nat → Prop := fun j => ∃ u : (ZMod n)ˣ, u ^ (2 ^ j) = -1 with hP
  set i := Nat.findGreatest P (t - 1) with hi
  have hP0 : P 0 := ⟨-1, by simp⟩
  have hPi : P i := Nat.findGreatest_spec (m := 0) (by omega) hP0
  have hit : i ≤ t - 1 := Nat.findGreatest_le _
  have hsodd : Odd s := Nat.odd_iff.mpr e3
  refine ⟨s * 2 ^ i, ?_, ?_, ?_⟩
  · refine ⟨2 ^ (t - 1 - i), ?_⟩
    rw [e1]
    have : 2 ^ t = 2 * 2 ^ i * 2 ^ (t - 1 - i) := by
      rw [← Nat.pow_succ', ← Nat.pow_add]; congr 1; omega
    rw [this]
    ring
  · obtain ⟨u, hu⟩ := hPi
    refine ⟨u, ?_⟩
    rw [Nat.mul_comm, pow_mul, hu, hsodd.neg_one_pow]
  · intro a ha
    have one_cast : ∀ x : Nat, x % n = 1 → (x : ZMod n) = 1 := fun x hx => by
      have : ((1 : Nat) : ZMod n) = 1 := Nat.cast_one
      rw [← this, ZMod.natCast_eq_natCast_iff', Nat.mod_eq_of_lt (by omega : 1 < n), hx]
    have neg_cast : ∀ x : Nat, x % n = n - 1 → (x : ZMod n) = -1 := fun x hx => by
      have : ((n - 1 : Nat) : ZMod n) = -1 := by rw [Nat.cast_sub (by omega)]; simp
      rw [← this, ZMod.natCast_eq_natCast_iff', Nat.mod_eq_of_lt (by omega : n - 1 < n), hx]
    have hspos : s ≠ 0 := by omega
    rcases ha s t e1 e3 with h | ⟨j, hj, h⟩
    · have h1 := one_cast _ h
      push_cast at h1
      have hu : IsUnit (a : ZMod n) := (isUnit_pow_iff hspos).mp (h1 ▸ isUnit_one)
      obtain ⟨u, hu⟩ := hu
      refine ⟨u, Or.inl ?_, hu⟩
      rw [pow_mul]
      have : u ^ s = 1 := by apply Units.ext; push_cast; rw [hu]; exact h1
      rw [this, one_pow]
    · have h1 := neg_cast _ h
      push_cast at h1
      have hne : s * 2 ^ j ≠ 0 := Nat.mul_ne_zero hspos (by positivity)
      have hu : IsUnit (a : ZMod n) := (isUnit_pow_iff hne).mp (h1 ▸ isUnit_one.neg)
      obtain ⟨u, hu⟩ := hu
      have hneg : u ^ (s * 2 ^ j) = -1 := by apply Units.ext; push_cast; rw [hu]; exact h1
      have hji : j ≤ i := Nat.le_findGreatest (by omega) ⟨u ^ s, by rw [← pow_mul]; exact hneg⟩
      refine ⟨u, ?_, hu⟩
      rcases Nat.eq_or_lt_of_le hji with rfl | hlt
      · exact Or.inr hneg
      · left
        have : s * 2 ^ i = s * 2 ^ j * (2 * 2 ^ (i - j - 1)) := by
          rw [← Nat.pow_succ', Nat.mul_assoc, ← Nat.pow_add]; congr 2; omega
        rw [this, pow_mul, hneg, pow_mul]
        simp

/-- A composite number without the prime factors 2 and 3 passes one trial with at most a quarter of
the bases from 2 to `n - 2`. -/
theorem C107_trial (n : Nat) (h1 : 1 < n) (hn : ¬ n.Prime) (hf : ∀ p, p.Prime → p ∣ n → 5 ≤ p) :
    4 * Set.ncard {b : Fin (n - 3) | StrongProbable n (2 + b.val)} ≤ n - 3 := by
  classical
  have : NeZero n := ⟨by omega⟩
  have hodd : n % 2 = 1 := by
    by_contra h
    have := hf 2 Nat.prime_two (by omega)
    omega
  have hn5 : 5 ≤ n := (hf _ (Nat.minFac_prime (by omega)) (Nat.minFac_dvd n)).trans (Nat.minFac_le (by omega))
  obtain ⟨E, e1, ⟨w, hw⟩, e3⟩ := strong_exponent (by omega) hodd
  have hcard := card_plusMinus h1 hn hf w hw e1
  set S : Set (Fin (n - 3)) := {b | StrongProbable n (2 + b.val)} with hS
  set V : Set (ZMod n) := (fun u : (ZMod n)ˣ => (u : ZMod n)) '' (plusMinus n E : Set (ZMod n)ˣ) with hV
  have hVc : V.ncard = Nat.card (plusMinus n E) := by
    rw [hV, Set.ncard_image_of_injective _ Units.val_injective]
    exact (Nat.card_coe_set_eq _).symm
  have hcast : ∀ x y : Nat, x < n → y < n → (x : ZMod n) = (y : ZMod n) → x = y := by
    intro x y hx hy h
    rw [ZMod.natCast_eq_natCast_iff', Nat.mod_eq_of_lt hx, Nat.mod_eq_of_lt hy] at h
    exact h
  set f : Fin (n - 3) → ZMod n := fun b => ((2 + b.val : Nat) : ZMod n) with hfd
  have hfinj : Function.Injective f := by
    intro b b' h
    have := hcast _ _ (by omega) (by omega) h
    exact Fin.ext (by omega)
  have hneg : ((n - 1 : Nat) : ZMod n) = -1 := by rw [Nat.cast_sub (by omega)]; simp
  have h1S : (1 : ZMod n) ∉ insert (-1 : ZMod n) (f '' S) := by
    rw [Set.mem_insert_iff]
    rintro (h | ⟨b, -, h⟩)
    · rw [← hneg, show (1 : ZMod n) = ((1 : Nat) : ZMod n) by simp] at h
      have := hcast _ _ (by omega) (by omega) h
      omega
    · rw [show (1 : ZMod n) = ((1 : Nat) : ZMod n) by simp] at h
      have := hcast _ _ (by omega) (by omega) h
      omega
  have h2S : (-1 : ZMod n) ∉ f '' S := by
    rintro ⟨b, -, h⟩
    rw [← hneg] at h
    have := hcast _ _ (by omega) (by omega) h
    omega
  have hsub : insert (1 : ZMod n) (insert (-1 : ZMod n) (f '' S)) ⊆ V := by
    intro x hx
    rcases hx with rfl | rfl | ⟨b, hb, rfl⟩
    · exact ⟨1, (plusMinus n E).one_mem, by simp⟩
    · refine ⟨-1, ?_, by simp⟩
      rcases Nat.even_or_odd E with h | h
      · exact Or.inl h.neg_one_pow
      · exact Or.inr h.neg_one_pow
    · obtain ⟨u, hu, hb'⟩ := e3 _ hb
      exact ⟨u, hu, hb'⟩
  have hle := Set.ncard_le_ncard hsub (Set.toFinite V)
  rw [Set.ncard_insert_of_notMem h1S (Set.toFinite _), Set.ncard_insert_of_notMem h2S (Set.toFinite _),
    Set.ncard_image_of_injective _ hfinj, hVc] at hle
  have hU : Nat.card (ZMod n)ˣ ≤ n - 1 := by
    rw [Nat.card_eq_fintype_card, ZMod.card_units_eq_totient]
    have := Nat.totient_lt n h1
    omega
  omega

/-- 91 = 7 * 13 passes one trial with 16 of the 88 bases from 2 to 89, 25 with 2 of 22. -/
example : ((List.range 88).filter (fun b => rmTrial 91 45 1 (2 + b))).length = 16 ∧
    ((List.range 22).filter (fun b => rmTrial 25 3 3 (2 + b))).length = 2 ∧
    90 = 45 * 2 ^ 1 ∧ 24 = 3 * 2 ^ 3 := by decide +kernel

/-! ### the whole test -/

/-- The random numbers of the five trials. -/
def trialDraws {N : Nat} (b : Fin 5 → Fin N) (k : Nat) : Nat := if h : k < 5 then (b ⟨k, h⟩).val else 0

/-- A composite number passes `is_prime` for at most one in 1024 of the choices of five bases (each of
the five bases takes each value from 2 to `n - 2` equally often). -/
theorem C107_composite (n : Nat) (hn : ¬ n.Prime) :
    4 ^ 5 * Set.ncard {b : Fin 5 → Fin (n - 3) | isPrimePy (trialDraws b) n = true} ≤ (n - 3) ^ 5 := by
  classical
  by_cases hs : 1 < n ∧ (∀ p, p.Prime → p ∣ n → 5 ≤ p)
  · obtain ⟨h1, hf⟩ := hs
    have hodd : n % 2 = 1 := by
      by_contra h
      have := hf 2 Nat.prime_two (by omega)
      omega
    have hn5 : 5 ≤ n := (hf _ (Nat.minFac_prime (by omega)) (Nat.minFac_dvd n)).trans (Nat.minFac_le (by omega))
    have hsub : {b : Fin 5 → Fin (n - 3) | isPrimePy (trialDraws b) n = true} ⊆
        ↑(Fintype.piFinset (fun _ : Fin 5 => Finset.univ.filter (fun b : Fin (n - 3) => StrongProbable n (2 + b.val)))) := by
      intro b hb
      rw [Set.mem_ofPred_eq] at hb
      unfold isPrimePy at hb
      rw [if_neg (by omega)] at hb
      split at hb
      · next hc => exact absurd (prime_of_mem_small (List.contains_iff_mem.mp hc)) hn
      split at hb
      · cases hb
      rw [C55_rabin_miller_iff _ n (by omega) hodd] at hb
      rw [Finset.mem_coe, Fintype.mem_piFinset]
      intro k
      rw [Finset.mem_filter]
      refine ⟨Finset.mem_univ _, ?_⟩
      have := hb k.val k.isLt
      unfold trialDraws at this
      rw [dif_pos k.isLt, Nat.mod_eq_of_lt (b _).isLt] at this
      exact this
    have hle := Set.ncard_le_ncard hsub (Set.toFinite _)
    rw [Set.ncard_coe_finset, Fintype.card_piFinset, Finset.prod_const, Finset.card_univ, Fintype.card_fin] at hle
    have htr := C107_trial n h1 hn hf
    rw [show {b : Fin (n - 3) | StrongProbable n (2 + b.val)} =
      ↑(Finset.univ.filter (fun b : Fin (n - 3) => StrongProbable n (2 + b.val))) by ext; simp, Set.ncard_coe_finset] at htr
    calc 4 ^ 5 * _ ≤ 4 ^ 5 * _ := Nat.mul_le_mul_left _ hle
      _ = (4 * (Finset.univ.filter (fun b : Fin (n - 3) => StrongProbable n (2 + b.val))).card) ^ 5 := by
        rw [Nat.mul_pow]
      _ ≤ _ := Nat.pow_le_pow_left htr 5
  · have hempty : {b : Fin 5 → Fin (n - 3) | isPrimePy (trialDraws b) n = true} = ∅ := by
      rw [Set.eq_empty_iff_forall_notMem]
      intro b hb
      rw [Set.mem_ofPred_eq] at hb
      apply hs
      unfold isPrimePy at hb
      split at hb
      · cases hb
      next h2 =>
      split at hb
      · next hc => exact absurd (prime_of_mem_small (List.contains_iff_mem.mp hc)) hn
      split at hb
      · cases hb
      next hany =>
      refine ⟨by omega, fun p hp hd => ?_⟩
      by_contra hlt
      have hp2 := hp.two_le
      have hmem : p ∈ smallPrimes := by
        rcases smallPrimes_complete p (by omega) hp2 with h | ⟨q, hq, hql, hqd⟩
        · exact h
        · rcases (Nat.dvd_prime hp).mp (Nat.dvd_of_mod_eq_zero hqd) with h | h
          · have := (prime_of_mem_small hq).one_lt; omega
          · omega
      apply hany
      rw [List.any_eq_true]
      exact ⟨p, hmem, by simpa using Nat.mod_eq_zero_of_dvd hd⟩
    rw [hempty, Set.ncard_empty, Nat.mul_zero]
    exact Nat.zero_le _

/-- Base 2 exposes 1009 * 2017; base 176577, drawn five times, lets 1009^2 pass. -/
example : isPrimePy (trialDraws (fun _ => (⟨0, by norm_num⟩ : Fin (1009 * 2017 - 3)))) (1009 * 2017) = false ∧
    isPrimePy (trialDraws (fun _ => (⟨176575, by norm_num⟩ : Fin (1009 ^ 2 - 3)))) (1009 ^ 2) = true ∧
    ¬ (1009 * 2017).Prime ∧ ¬ (1009 ^ 2).Prime := by
  refine ⟨by decide +kernel, by decide +kernel, Nat.not_prime_mul (by norm_num) (by norm_num), ?_⟩
  rw [Nat.pow_two]
  exact Nat.not_prime_mul (by norm_num) (by norm_num)

end PoS
