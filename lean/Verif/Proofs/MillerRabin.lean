import Mathlib.Data.ZMod.Units
import Mathlib.Data.ZMod.Basic
import Mathlib.RingTheory.ZMod
import Mathlib.FieldTheory.Finite.Basic
import Mathlib.GroupTheory.Perm.Cycle.Type
import Mathlib.GroupTheory.Coset.Card
import Mathlib.Data.Nat.Totient
import Mathlib.RingTheory.IntegralDomain
import Mathlib.Algebra.Group.Prod
import Mathlib.Data.Nat.Factorization.Basic

/-
The bases for which an odd composite number passes one Miller-Rabin trial: at most a quarter of the
units.
-/

namespace PoS

/-- The units whose `E`-th power is 1 or -1. -/
def plusMinus (n E : Nat) : Subgroup (ZMod n)ˣ where
  carrier := {u | u ^ E = 1 ∨ u ^ E = -1}
  one_mem' := Or.inl (one_pow _)
  mul_mem' := by
    rintro a b (ha | ha) (hb | hb) <;> simp [mul_pow, ha, hb]
  inv_mem' := by
    rintro a (ha | ha) <;> simp [inv_pow, ha]

theorem mem_plusMinus {n E : Nat} {u : (ZMod n)ˣ} : u ∈ plusMinus n E ↔ u ^ E = 1 ∨ u ^ E = -1 := Iff.rfl

/-- The units whose `E`-th power is 1. -/
def rootsOne (n E : Nat) : Subgroup (ZMod n)ˣ where
  carrier := {u | u ^ E = 1}
  one_mem' := one_pow _
  mul_mem' := by
    intro a b ha hb
    simp only [Set.mem_setOf_eq] at ha hb ⊢
    rw [mul_pow, ha, hb, one_mul]
  inv_mem' := by
    intro a ha
    simp only [Set.mem_setOf_eq] at ha ⊢
    rw [inv_pow, ha, inv_one]

theorem mem_rootsOne {n E : Nat} {u : (ZMod n)ˣ} : u ∈ rootsOne n E ↔ u ^ E = 1 := Iff.rfl

theorem two_mul_card_le {G : Type*} [Group G] [Finite G] {A B : Subgroup G} (h : A < B) :
    2 * Nat.card A ≤ Nat.card B := by
  have hd := Subgroup.card_dvd_of_le h.le
  obtain ⟨k, hk⟩ := hd
  have hpos : 0 < Nat.card B := Nat.card_pos
  have hk2 : 2 ≤ k := by
    rcases Nat.lt_or_ge k 2 with hlt | hge
    · exfalso
      have : k = 0 ∨ k = 1 := by omega
      rcases this with rfl | rfl
      · rw [hk] at hpos; simp at hpos
      · rw [Nat.mul_one] at hk
        exact h.ne (Subgroup.eq_of_le_of_card_ge h.le (by rw [hk]))
    · exact hge
  rw [hk, Nat.mul_comm]
  exact Nat.mul_le_mul_left _ hk2

theorem neg_one_ne_one_units {n : Nat} (hn : 2 < n) : (-1 : (ZMod n)ˣ) ≠ 1 := by
  have : Fact (2 < n) := ⟨hn⟩
  intro h
  have := congrArg Units.val h
  exact ZMod.neg_one_ne_one (by simpa using this)

/-- The Chinese remainder theorem for units. -/
theorem exists_units_crt {A B : Nat} (h : A.Coprime B) :
    ∃ ψ : (ZMod (A * B))ˣ ≃* (ZMod A)ˣ × (ZMod B)ˣ, ψ (-1) = (-1, -1) := by
  refine ⟨(Units.mapEquiv (ZMod.chineseRemainder h).toMulEquiv).trans MulEquiv.prodUnits, ?_⟩
  apply Prod.ext <;> apply Units.ext <;> simp [MulEquiv.prodUnits]

/-- A number with two coprime factors has square roots of 1 among the `E`-th powers other than 1, -1. -/
theorem exists_mixed {A B E : Nat} (h : A.Coprime B) (hA : 2 < A) (hB : 2 < B) (w : (ZMod (A * B))ˣ)
    (hw : w ^ E = -1) : ∃ x : (ZMod (A * B))ˣ, x ^ E ≠ 1 ∧ x ^ E ≠ -1 ∧ x ^ (2 * E) = 1 := by
  obtain ⟨ψ, hψ⟩ := exists_units_crt h
  have e1 : (ψ w).1 ^ E = -1 := by
    have : ψ (w ^ E) = (-1, -1) := by rw [hw, hψ]
    rw [map_pow] at this
    exact congrArg Prod.fst this
  have key : ψ (ψ.symm ((ψ w).1, 1) ^ E) = (-1, 1) := by
    rw [map_pow, MulEquiv.apply_symm_apply]
    exact Prod.ext e1 (one_pow _)
  refine ⟨ψ.symm ((ψ w).1, 1), fun hx => ?_, fun hx => ?_, ?_⟩
  · rw [hx, map_one] at key
    exact neg_one_ne_one_units hA (congrArg Prod.fst key).symm
  · rw [hx, hψ] at key
    exact neg_one_ne_one_units hB (congrArg Prod.snd key)
  · apply ψ.injective
    rw [Nat.mul_comm 2 E, pow_mul, map_pow, key, map_one]
    exact Prod.ext (by simp) (by simp)

/-- Three pairwise coprime factors: a quarter. -/
theorem card_three {A B C E : Nat} (h1 : A.Coprime B) (h2 : (A * B).Coprime C) (hA : 2 < A) (hB : 2 < B) (hC : 2 < C)
    (w : (ZMod (A * B * C))ˣ) (hw : w ^ E = -1) :
    4 * Nat.card (plusMinus (A * B * C) E) ≤ Nat.card (ZMod (A * B * C))ˣ := by
  have : NeZero (A * B * C) := ⟨by positivity⟩
  obtain ⟨ψ, hψ⟩ := exists_units_crt h2
  have hABpos : 2 < A * B := by nlinarith
  have hwψ : ψ (w ^ E) = (-1, -1) := by rw [hw, hψ]
  have e1 : (ψ w).1 ^ E = -1 := by
    rw [map_pow] at hwψ
    exact congrArg Prod.fst hwψ
  have e2 : (ψ w).2 ^ E = -1 := by
    rw [map_pow] at hwψ
    exact congrArg Prod.snd hwψ
  let K : Subgroup (ZMod (A * B * C))ˣ := (plusMinus (A * B) E).comap ((MonoidHom.fst _ _).comp ψ.toMonoidHom)
  have hK : ∀ u, u ∈ K ↔ ((ψ u).1 ^ E = 1 ∨ (ψ u).1 ^ E = -1) := fun u => Iff.rfl
  have hGK : plusMinus (A * B * C) E < K := by
    refine lt_of_le_of_ne ?_ ?_
    · intro u hu
      rw [hK]
      rcases hu with hu | hu
      · left
        have := congrArg ψ hu
        rw [map_pow, map_one] at this
        exact congrArg Prod.fst this
      · right
        have := congrArg ψ hu
        rw [map_pow, hψ] at this
        exact congrArg Prod.fst this
    · intro heq
      have hx : ψ.symm (1, (ψ w).2) ∈ K := by
        rw [hK, MulEquiv.apply_symm_apply]
        exact Or.inl (one_pow _)
      have key : ψ (ψ.symm (1, (ψ w).2) ^ E) = (1, -1) := by
        rw [map_pow, MulEquiv.apply_symm_apply]
        exact Prod.ext (one_pow _) e2
      rw [← heq] at hx
      rcases hx with hx | hx
      · rw [hx, map_one] at key
        exact neg_one_ne_one_units hC (congrArg Prod.snd key).symm
      · rw [hx, hψ] at key
        exact neg_one_ne_one_units hABpos (congrArg Prod.fst key)
  have hKT : K < ⊤ := by
    rw [lt_top_iff_ne_top]
    intro htop
    obtain ⟨x, hx1, hx2, -⟩ := exists_mixed h1 hA hB _ e1
    have hx : ψ.symm (x, 1) ∈ K := by rw [htop]; trivial
    rw [hK, MulEquiv.apply_symm_apply] at hx
    exact hx.elim hx1 hx2
  have c1 := two_mul_card_le hGK
  have c2 := two_mul_card_le hKT
  rw [Subgroup.card_top] at c2
  omega

/-- Two coprime factors and a unit that fails Fermat's test: a quarter. -/
theorem card_two {A B E m : Nat} (h : A.Coprime B) (hA : 2 < A) (hB : 2 < B) (w : (ZMod (A * B))ˣ) (hw : w ^ E = -1)
    (hm : 2 * E ∣ m) (y : (ZMod (A * B))ˣ) (hy : y ^ m ≠ 1) :
    4 * Nat.card (plusMinus (A * B) E) ≤ Nat.card (ZMod (A * B))ˣ := by
  have : NeZero (A * B) := ⟨by positivity⟩
  obtain ⟨k, rfl⟩ := hm
  obtain ⟨x, hx1, hx2, hx3⟩ := exists_mixed h hA hB w hw
  have hGF : plusMinus (A * B) E < rootsOne (A * B) (2 * E * k) := by
    refine lt_of_le_of_ne ?_ ?_
    · intro u hu
      rw [mem_rootsOne, Nat.mul_comm 2 E, Nat.mul_assoc, pow_mul]
      rcases hu with hu | hu <;> rw [hu] <;> simp [pow_mul]
    · intro heq
      have hx : x ∈ rootsOne (A * B) (2 * E * k) := by rw [mem_rootsOne, pow_mul, hx3, one_pow]
      rw [← heq] at hx
      exact hx.elim hx1 hx2
  have hFT : rootsOne (A * B) (2 * E * k) < ⊤ := by
    rw [lt_top_iff_ne_top]
    intro htop
    have : y ∈ rootsOne (A * B) (2 * E * k) := by rw [htop]; trivial
    exact hy this
  have c1 := two_mul_card_le hGF
  have c2 := two_mul_card_le hFT
  rw [Subgroup.card_top] at c2
  omega

/-- A square factor gives a unit that fails Fermat's test. -/
theorem exists_fails_of_sq {n p : Nat} (hn : 0 < n) (hp : p.Prime) (h : p ^ 2 ∣ n) : ∃ y : (ZMod n)ˣ, y ^ (n - 1) ≠ 1 := by
  have : NeZero n := ⟨by omega⟩
  have : Fact p.Prime := ⟨hp⟩
  have hdvd : p ∣ Nat.card (ZMod n)ˣ := by
    rw [Nat.card_eq_fintype_card, ZMod.card_units_eq_totient]
    have h1 : (p ^ 2).totient ∣ n.totient := Nat.totient_dvd_of_dvd h
    refine dvd_trans ?_ h1
    rw [Nat.totient_prime_pow hp (by norm_num)]
    exact ⟨p - 1, by simp⟩
  obtain ⟨y, hy⟩ := exists_prime_orderOf_dvd_card' p hdvd
  refine ⟨y, fun h1 => ?_⟩
  have h2 := orderOf_dvd_of_pow_eq_one h1
  rw [hy] at h2
  have h3 : p ∣ n := dvd_trans (Dvd.intro_left (p ^ 1) (by rw [← pow_succ])) h
  have : p ∣ n - (n - 1) := Nat.dvd_sub h3 h2
  rw [show n - (n - 1) = 1 by omega] at this
  exact hp.one_lt.ne' (Nat.dvd_one.mp this)

/-- A product of two different primes has a unit that fails Fermat's test. -/
theorem exists_fails_of_two {p q : Nat} (hp : p.Prime) (hq : q.Prime) (hlt : p < q) :
    ∃ y : (ZMod (p * q))ˣ, y ^ (p * q - 1) ≠ 1 := by
  have : Fact q.Prime := ⟨hq⟩
  have : NeZero (p * q) := ⟨Nat.mul_ne_zero hp.ne_zero hq.ne_zero⟩
  obtain ⟨g, hg⟩ := IsCyclic.exists_generator (α := (ZMod q)ˣ)
  obtain ⟨y, hy⟩ := ZMod.unitsMap_surjective (Dvd.intro_left p rfl : q ∣ p * q) g
  refine ⟨y, fun h => ?_⟩
  have h1 : g ^ (p * q - 1) = 1 := by rw [← hy, ← map_pow, h, map_one]
  have h2 := orderOf_dvd_of_pow_eq_one h1
  rw [orderOf_eq_card_of_forall_mem_zpowers hg, Nat.card_eq_fintype_card, ZMod.card_units_eq_totient,
    Nat.totient_prime hq] at h2
  have hp2 := hp.two_le
  have e : p * q - 1 = p * (q - 1) + (p - 1) := by
    obtain ⟨r, rfl⟩ : ∃ r, q = r + 1 := ⟨q - 1, by omega⟩
    rw [Nat.mul_succ]
    simp only [Nat.add_sub_cancel]
    omega
  rw [e] at h2
  have h3 := (Nat.dvd_add_right (Dvd.intro_left p rfl)).mp h2
  have := Nat.le_of_dvd (by omega) h3
  omega

/-- Prime powers. -/
theorem card_prime_pow {p k E : Nat} (hp : p.Prime) (h5 : 5 ≤ p) (hk : 2 ≤ k) (hE : 2 * E ∣ p ^ k - 1) :
    4 * Nat.card (plusMinus (p ^ k) E) ≤ Nat.card (ZMod (p ^ k))ˣ := by
  have : Fact p.Prime := ⟨hp⟩
  have hpos : 0 < p ^ k := Nat.pow_pos hp.pos
  have : NeZero (p ^ k) := ⟨by omega⟩
  have hnot : ¬ p ∣ Nat.card (plusMinus (p ^ k) E) := by
    intro hd
    obtain ⟨y, hy⟩ := exists_prime_orderOf_dvd_card' p hd
    have h1 : y ^ (p ^ k - 1) = 1 := by
      obtain ⟨r, hr⟩ := hE
      apply Subtype.ext
      rw [Subgroup.coe_pow, Subgroup.coe_one, hr, Nat.mul_comm 2 E, Nat.mul_assoc, pow_mul]
      rcases y.2 with hu | hu <;> rw [hu] <;> simp [pow_mul]
    have h2 := orderOf_dvd_of_pow_eq_one h1
    rw [hy] at h2
    have h3 : p ∣ p ^ k := dvd_pow_self p (by omega)
    have : p ∣ p ^ k - (p ^ k - 1) := Nat.dvd_sub h3 h2
    rw [show p ^ k - (p ^ k - 1) = 1 by omega] at this
    exact hp.one_lt.ne' (Nat.dvd_one.mp this)
  have hU : Nat.card (ZMod (p ^ k))ˣ = p ^ (k - 1) * (p - 1) := by
    rw [Nat.card_eq_fintype_card, ZMod.card_units_eq_totient, Nat.totient_prime_pow hp (by omega)]
  have hd : Nat.card (plusMinus (p ^ k) E) ∣ p ^ (k - 1) * (p - 1) := hU ▸ Subgroup.card_subgroup_dvd_card _
  have hco : (Nat.card (plusMinus (p ^ k) E)).Coprime (p ^ (k - 1)) :=
    Nat.Coprime.pow_right _ ((Nat.Prime.coprime_iff_not_dvd hp).mpr hnot).symm
  have hle := Nat.le_of_dvd (by omega) (hco.dvd_of_dvd_mul_left hd)
  rw [hU]
  have hp1 : 5 ≤ p ^ (k - 1) := h5.trans (Nat.le_self_pow (by omega) p)
  calc 4 * Nat.card (plusMinus (p ^ k) E) ≤ p ^ (k - 1) * Nat.card (plusMinus (p ^ k) E) :=
        Nat.mul_le_mul_right _ (by omega)
    _ ≤ _ := Nat.mul_le_mul_left _ hle

/-- Every composite number without the prime factors 2 and 3. -/
theorem card_plusMinus {n E : Nat} (h1 : 1 < n) (hn : ¬ n.Prime) (hf : ∀ p, p.Prime → p ∣ n → 5 ≤ p)
    (w : (ZMod n)ˣ) (hw : w ^ E = -1) (hE : 2 * E ∣ n - 1) :
    4 * Nat.card (plusMinus n E) ≤ Nat.card (ZMod n)ˣ := by
  obtain ⟨p, hp, hpn⟩ := Nat.exists_prime_and_dvd (show n ≠ 1 by omega)
  obtain ⟨k, m, hm, hnk⟩ := Nat.exists_eq_pow_mul_and_not_dvd (show n ≠ 0 by omega) p hp.ne_one
  have hk : 0 < k := by
    rcases Nat.eq_zero_or_pos k with rfl | h
    · rw [pow_zero, one_mul] at hnk
      exact absurd (hnk ▸ hpn) hm
    · exact h
  have hp5 := hf p hp hpn
  have hpk : p ≤ p ^ k := Nat.le_self_pow (by omega) p
  by_cases hm1 : m = 1
  · rw [hm1, Nat.mul_one] at hnk
    subst hnk
    refine card_prime_pow hp hp5 ?_ hE
    rcases Nat.lt_or_ge k 2 with h | h
    · exfalso
      have : k = 1 := by omega
      subst this
      rw [pow_one] at hn
      exact hn hp
    · exact h
  obtain ⟨q, hq, hqm⟩ := Nat.exists_prime_and_dvd hm1
  have hm0 : m ≠ 0 := by rintro rfl; exact hm (dvd_zero _)
  obtain ⟨l, r, hr, hml⟩ := Nat.exists_eq_pow_mul_and_not_dvd hm0 q hq.ne_one
  have hqn : q ∣ n := hnk ▸ dvd_mul_of_dvd_right hqm _
  have hq5 := hf q hq hqn
  have hpq : p ≠ q := by rintro rfl; exact hm hqm
  have hl : 0 < l := by
    rcases Nat.eq_zero_or_pos l with rfl | h
    · rw [pow_zero, one_mul] at hml
      exact absurd (hml ▸ hqm) hr
    · exact h
  have hql : q ≤ q ^ l := Nat.le_self_pow (by omega) q
  have hcpq : (p ^ k).Coprime (q ^ l) := Nat.Coprime.pow _ _ ((Nat.coprime_primes hp hq).mpr hpq)
  by_cases hr1 : r = 1
  · rw [hr1, Nat.mul_one] at hml
    subst hml
    subst hnk
    by_cases hkl : k = 1 ∧ l = 1
    · obtain ⟨rfl, rfl⟩ := hkl
      obtain ⟨y, hy⟩ : ∃ y : (ZMod (p ^ 1 * q ^ 1))ˣ, y ^ (p ^ 1 * q ^ 1 - 1) ≠ 1 := by
        rw [pow_one, pow_one]
        rcases Nat.lt_or_gt_of_ne hpq with h | h
        · exact exists_fails_of_two hp hq h
        · rw [Nat.mul_comm p q]
          exact exists_fails_of_two hq hp h
      exact card_two hcpq (by omega) (by omega) w hw hE y hy
    · obtain ⟨y, hy⟩ : ∃ y : (ZMod (p ^ k * q ^ l))ˣ, y ^ (p ^ k * q ^ l - 1) ≠ 1 := by
        by_cases hk2 : 2 ≤ k
        · exact exists_fails_of_sq (by omega) hp (dvd_mul_of_dvd_left (pow_dvd_pow p hk2) _)
        · exact exists_fails_of_sq (by omega) hq (dvd_mul_of_dvd_right (pow_dvd_pow q (by omega)) _)
      exact card_two hcpq (by omega) (by omega) w hw hE y hy
  · subst hml
    rw [← Nat.mul_assoc] at hnk
    subst hnk
    have hr0 : r ≠ 0 := by rintro rfl; simp at hm0
    obtain ⟨s, hs, hsr⟩ := Nat.exists_prime_and_dvd hr1
    have hs5 := hf s hs (dvd_mul_of_dvd_right hsr _)
    have hrs := Nat.le_of_dvd (by omega) hsr
    refine card_three hcpq ?_ (by omega) (by omega) (by omega) w hw
    apply Nat.Coprime.mul_left
    · exact Nat.Coprime.pow_left _ ((Nat.Prime.coprime_iff_not_dvd hp).mpr (fun h => hm (dvd_mul_of_dvd_right h _)))
    · exact Nat.Coprime.pow_left _ ((Nat.Prime.coprime_iff_not_dvd hq).mpr hr)

end PoS
