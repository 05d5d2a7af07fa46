import Mathlib.FieldTheory.IsAlgClosed.AlgebraicClosure
import Mathlib.FieldTheory.Finite.Basic
import Mathlib.NumberTheory.LegendreSymbol.Basic
import Mathlib.GroupTheory.OrderOfElement
import Mathlib.Data.Nat.Prime.Basic
import Mathlib.Algebra.CharP.Lemmas

/-
Primality certificates: Pocklington's test (factored part of N - 1) and Morrison's
test (factored part of N + 1), with checkers meant to be evaluated by the kernel.
-/

namespace PoS

/-- `x ^ e % m` by repeated squaring, `e < 2 ^ fuel`. -/
def pw : Nat → Nat → Nat → Nat → Nat → Nat
  | 0, _, _, m, acc => acc % m
  | fuel + 1, x, e, m, acc =>
    if e = 0 then acc % m
    else pw fuel (x * x % m) (e / 2) m (if e % 2 = 1 then acc * x % m else acc)

theorem pw_eq (fuel x e m acc : Nat) (h : e < 2 ^ fuel) : pw fuel x e m acc = acc * x ^ e % m := by
  induction fuel generalizing x e acc with
  | zero =>
    have : e = 0 := by omega
    subst this; simp [pw]
  | succ fuel ih =>
    unfold pw
    split
    · next h0 => subst h0; simp
    · rw [ih _ _ _ (by rw [Nat.pow_succ] at h; omega)]
      have e1 : x ^ e = (x * x) ^ (e / 2) * x ^ (e % 2) := by
        rw [← Nat.pow_two, ← Nat.pow_mul, ← Nat.pow_add, Nat.div_add_mod]
      have e2 : (x * x % m) ^ (e / 2) ≡ (x * x) ^ (e / 2) [MOD m] := (Nat.mod_modEq _ _).pow _
      split
      · next h1 =>
        have : acc * x % m * (x * x % m) ^ (e / 2) ≡ acc * x * (x * x) ^ (e / 2) [MOD m] :=
          (Nat.mod_modEq _ _).mul e2
        rw [this, e1, h1]
        congr 1
        ring
      · next h1 =>
        have h0 : e % 2 = 0 := by omega
        have : acc * (x * x % m) ^ (e / 2) ≡ acc * (x * x) ^ (e / 2) [MOD m] := e2.mul_left _
        rw [this, e1, h0]
        congr 1
        ring

/-- One line of a Pocklington certificate: base `a` for the prime factor `q` of `N - 1`. -/
def pockCheck (fuel N q a : Nat) : Bool :=
  decide (N < 2 ^ fuel) && (N - 1) % q == 0 && pw fuel a (N - 1) N 1 == 1 &&
    Nat.gcd (pw fuel a ((N - 1) / q) N 1 + N - 1) N == 1

/-- If a power is one but its `q`-th root power is not, `q` divides the order. -/
theorem prime_dvd_order {M : Type*} [Monoid M] {x : M} {m q : Nat} (hq : q.Prime)
    (hqm : q ∣ m) (h1 : x ^ m = 1) (h2 : x ^ (m / q) ≠ 1) : q ∣ orderOf x := by
  have hd := orderOf_dvd_of_pow_eq_one h1
  obtain ⟨k, hk⟩ := hd
  rcases hq.dvd_mul.mp (hk ▸ hqm) with h | h
  · exact h
  · exfalso
    apply h2
    obtain ⟨j, rfl⟩ := h
    have : m / q = orderOf x * j := by
      rw [hk, show orderOf x * (q * j) = q * (orderOf x * j) by ring, Nat.mul_div_cancel_left _ hq.pos]
    rw [this, pow_mul, pow_orderOf_eq_one, one_pow]

theorem pock_dvd {fuel N q a r : Nat} (hq : q.Prime) (hr : r.Prime) (hrN : r ∣ N) (hN : 1 < N)
    (h : pockCheck fuel N q a = true) : q ∣ r - 1 := by
  unfold pockCheck at h
  simp only [Bool.and_eq_true, decide_eq_true_eq, beq_iff_eq] at h
  obtain ⟨⟨⟨h1, h2⟩, h3⟩, h4⟩ := h
  rw [pw_eq _ _ _ _ _ (by omega), one_mul] at h3
  rw [pw_eq _ _ _ _ _ (by have := Nat.div_le_self (N - 1) q; omega), one_mul] at h4
  haveI := Fact.mk hr
  have hz : ((N : Nat) : ZMod r) = 0 := (ZMod.natCast_eq_zero_iff _ _).mpr hrN
  have hcast : ∀ m : Nat, ((m % N : Nat) : ZMod r) = (m : ZMod r) := by
    intro m
    conv_rhs => rw [← Nat.mod_add_div m N]
    push_cast; rw [hz]; ring
  have p1 : (a : ZMod r) ^ (N - 1) = 1 := by
    have := congrArg (fun x : Nat => (x : ZMod r)) h3
    simp only [hcast] at this
    simpa using this
  have p2 : (a : ZMod r) ^ ((N - 1) / q) ≠ 1 := by
    intro hc
    have : ((a ^ ((N - 1) / q) % N + N - 1 : Nat) : ZMod r) = 0 := by
      rw [Nat.add_sub_assoc (by omega), Nat.cast_add, hcast, Nat.cast_sub (by omega), hz]
      push_cast
      rw [hc]; ring
    rw [ZMod.natCast_eq_zero_iff] at this
    have := Nat.dvd_gcd this hrN
    rw [h4] at this
    exact hr.one_lt.ne' (Nat.dvd_one.mp this)
  have ha0 : (a : ZMod r) ≠ 0 := by
    intro h0
    rw [h0, zero_pow (by omega)] at p1
    exact zero_ne_one p1
  have h5 := prime_dvd_order hq (Nat.dvd_of_mod_eq_zero h2) p1 p2
  exact h5.trans (ZMod.orderOf_dvd_card_sub_one ha0)

theorem list_prod_dvd {qs : List Nat} {m : Nat} (hp : qs.Pairwise Nat.Coprime) (h : ∀ q ∈ qs, q ∣ m) :
    qs.prod ∣ m := by
  induction qs with
  | nil => simp
  | cons q qs ih =>
    rw [List.pairwise_cons] at hp
    rw [List.prod_cons]
    exact Nat.Coprime.mul_dvd_of_dvd_of_dvd (Nat.coprime_list_prod_right_iff.mpr hp.1)
      (h q (by simp)) (ih hp.2 (fun x hx => h x (by simp [hx])))

theorem prime_of_factor_gt {N : Nat} (hN : 1 < N) {B : Nat} (hB : N < B * B)
    (h : ∀ r, r.Prime → r ∣ N → B ≤ r) : N.Prime := by
  by_contra hc
  have hm := Nat.minFac_prime (n := N) (by omega)
  have h1 := h _ hm (Nat.minFac_dvd N)
  have h2 := Nat.minFac_sq_le_self (by omega) hc
  have := Nat.mul_le_mul h1 h1
  rw [pow_two] at h2
  omega

/-- Pocklington's test. -/
theorem pocklington {N : Nat} (fuel : Nat) (cert : List (Nat × Nat)) (hN : 1 < N)
    (hq : ∀ c ∈ cert, c.1.Prime) (hp : (cert.map (·.1)).Nodup)
    (hc : (cert.all fun c => pockCheck fuel N c.1 c.2) = true)
    (hB : N < ((cert.map (·.1)).prod + 1) * ((cert.map (·.1)).prod + 1)) : N.Prime := by
  refine prime_of_factor_gt hN hB ?_
  intro r hr hrN
  rw [List.all_eq_true] at hc
  have h1 : (cert.map (·.1)).prod ∣ r - 1 := by
    apply list_prod_dvd
    · refine (List.Pairwise.imp_of_mem ?_ hp)
      intro a b ha hb hne
      rw [List.mem_map] at ha hb
      obtain ⟨x, hx, rfl⟩ := ha
      obtain ⟨y, hy, rfl⟩ := hb
      exact (Nat.coprime_primes (hq x hx) (hq y hy)).mpr hne
    · intro q hqm
      rw [List.mem_map] at hqm
      obtain ⟨c, hcm, rfl⟩ := hqm
      exact pock_dvd (hq c hcm) hr hrN hN (hc c hcm)
  have := Nat.le_of_dvd (by have := hr.two_le; omega) h1
  have := hr.two_le
  generalize (cert.map (·.1)).prod = F at *
  omega

/-! ### The N + 1 test -/

/-- Product of `a + b √D` and `c + d √D` modulo `N`. -/
def pairMul (N D : Nat) (x y : Nat × Nat) : Nat × Nat :=
  ((x.1 * y.1 + D * (x.2 * y.2)) % N, (x.1 * y.2 + x.2 * y.1) % N)

/-- Power of `a + b √D` modulo `N`, `e < 2 ^ fuel`. -/
def pairPow (N D : Nat) : Nat → Nat × Nat → Nat → Nat × Nat → Nat × Nat
  | 0, _, _, acc => acc
  | fuel + 1, x, e, acc =>
    if e = 0 then acc
    else pairPow N D fuel (pairMul N D x x) (e / 2) (if e % 2 = 1 then pairMul N D acc x else acc)

section

variable {K : Type*} [Field K] {N D : Nat} {s : K}

/-- The value of a pair in a field containing a root `s` of `D`. -/
def pairVal (s : K) (x : Nat × Nat) : K := (x.1 : K) + (x.2 : K) * s

theorem pairVal_mul (hN : (N : K) = 0) (hs : s * s = (D : K)) (x y : Nat × Nat) :
    pairVal s (pairMul N D x y) = pairVal s x * pairVal s y := by
  have hcast : ∀ m : Nat, ((m % N : Nat) : K) = (m : K) := by
    intro m
    conv_rhs => rw [← Nat.mod_add_div m N]
    push_cast; rw [hN]; ring
  unfold pairVal pairMul
  simp only [hcast]
  push_cast
  rw [← hs]
  ring

theorem pairVal_pow (hN : (N : K) = 0) (hs : s * s = (D : K)) (fuel : Nat) (x : Nat × Nat) (e : Nat)
    (acc : Nat × Nat) (h : e < 2 ^ fuel) :
    pairVal s (pairPow N D fuel x e acc) = pairVal s acc * pairVal s x ^ e := by
  induction fuel generalizing x e acc with
  | zero =>
    have : e = 0 := by omega
    subst this; simp [pairPow]
  | succ fuel ih =>
    unfold pairPow
    split
    · next h0 => subst h0; simp
    · rw [ih _ _ _ (by rw [Nat.pow_succ] at h; omega), pairVal_mul hN hs]
      have e1 : pairVal s x ^ e = (pairVal s x * pairVal s x) ^ (e / 2) * pairVal s x ^ (e % 2) := by
        rw [← pow_two, ← pow_mul, ← pow_add, Nat.div_add_mod]
      rw [e1]
      split
      · next h1 => rw [h1, pairVal_mul hN hs]; ring
      · next h1 =>
        rw [show e % 2 = 0 by omega]; ring

end

/-- The N + 1 certificate for the prime factor `q` of `N + 1`: `a + b √D` has norm
one, `D` is invertible, and its order condition holds. -/
def morrisonCheck (fuel N D q a b : Nat) : Bool :=
  decide (N + 1 < 2 ^ fuel) && (N + 1) % q == 0 && N % 2 == 1 && Nat.gcd D N == 1 &&
    (a * a) % N == (1 + D * (b * b)) % N &&
    pairPow N D fuel (a, b) (N + 1) (1, 0) == (1, 0) &&
    (let w := pairPow N D fuel (a, b) ((N + 1) / q) (1, 0)
     Nat.gcd ((w.1 + N - 1) * (w.1 + N - 1) + N * (D * (w.2 * w.2)) - D * (w.2 * w.2)) N == 1)

theorem morrison_dvd_aux {K : Type*} [Field K] {fuel N D q a b r : Nat} [Fact r.Prime]
    [Algebra (ZMod r) K] [CharP K r] (s : K) (hs : s * s = (D : K))
    (hq : q.Prime) (hrN : r ∣ N) (hN : 1 < N)
    (h : morrisonCheck fuel N D q a b = true) : q ∣ r - 1 ∨ q ∣ r + 1 := by
  have hr : r.Prime := Fact.out
  unfold morrisonCheck at h
  simp only [Bool.and_eq_true, decide_eq_true_eq, beq_iff_eq] at h
  obtain ⟨⟨⟨⟨⟨⟨h1, h2⟩, h3⟩, h4⟩, h5⟩, h6⟩, h7⟩ := h
  have hcz : ∀ m : Nat, (m : K) = 0 ↔ r ∣ m := fun m => CharP.cast_eq_zero_iff K r m
  have hNz : (N : K) = 0 := (hcz N).mpr hrN
  have hcast : ∀ m : Nat, ((m % N : Nat) : K) = (m : K) := by
    intro m
    conv_rhs => rw [← Nat.mod_add_div m N]
    push_cast; rw [hNz]; ring
  set α : K := pairVal s (a, b) with hα
  have hαv : α = (a : K) + (b : K) * s := rfl
  -- norm one
  have hnorm : α * ((a : K) - (b : K) * s) = 1 := by
    have := congrArg (fun x : Nat => (x : K)) h5
    simp only [hcast] at this
    push_cast at this
    rw [hαv]
    have e : ((a : K) + b * s) * (a - b * s) = a * a - (s * s) * (b * b) := by ring
    rw [e, hs, this]; ring
  have hα0 : α ≠ 0 := by
    intro h0; rw [h0, zero_mul] at hnorm; exact zero_ne_one hnorm
  have p1 : α ^ (N + 1) = 1 := by
    have := pairVal_pow hNz hs fuel (a, b) (N + 1) (1, 0) h1
    rw [h6, ← hα] at this
    have e : pairVal s (1, 0) = (1 : K) := by simp [pairVal]
    rw [e, one_mul] at this
    exact this.symm
  have p2 : α ^ ((N + 1) / q) ≠ 1 := by
    intro hc
    have := pairVal_pow hNz hs fuel (a, b) ((N + 1) / q) (1, 0)
      (lt_of_le_of_lt (Nat.div_le_self _ _) h1)
    rw [← hα, hc] at this
    set w := pairPow N D fuel (a, b) ((N + 1) / q) (1, 0) with hw
    have hw1 : (w.1 : K) + (w.2 : K) * s = 1 := by
      have h8 : pairVal s w = (1 : K) := by rw [this]; simp [pairVal]
      exact h8
    have hle : D * (w.2 * w.2) ≤ N * (D * (w.2 * w.2)) := Nat.le_mul_of_pos_left _ (by omega)
    have hz : (((w.1 + N - 1) * (w.1 + N - 1) + N * (D * (w.2 * w.2)) - D * (w.2 * w.2) : Nat) : K) = 0 := by
      rw [Nat.cast_sub (by omega), Nat.cast_add, Nat.cast_mul, Nat.cast_sub (by omega)]
      push_cast
      rw [hNz, ← hs]
      have : (w.1 : K) = 1 - (w.2 : K) * s := by rw [← hw1]; ring
      rw [this]; ring
    rw [hcz] at hz
    have := Nat.dvd_gcd hz hrN
    rw [h7] at this
    exact hr.one_lt.ne' (Nat.dvd_one.mp this)
  have hord := prime_dvd_order hq (Nat.dvd_of_mod_eq_zero h2) p1 p2
  -- Frobenius
  have hr2 : r ≠ 2 := by
    rintro rfl
    omega
  have hD0 : (D : ZMod r) ≠ 0 := by
    intro h0
    rw [ZMod.natCast_eq_zero_iff] at h0
    have := Nat.dvd_gcd h0 hrN
    rw [h4] at this
    exact hr.one_lt.ne' (Nat.dvd_one.mp this)
  have hrodd : r % 2 = 1 := hr.eq_two_or_odd.resolve_left hr2
  have hDe : (D : ZMod r) ^ (r / 2) = 1 ∨ (D : ZMod r) ^ (r / 2) = -1 := by
    have := ZMod.pow_div_two_eq_neg_one_or_one r hD0
    exact this
  have hsr : s ^ r = (D : K) ^ (r / 2) * s := by
    conv_lhs => rw [show r = 2 * (r / 2) + 1 by omega]
    rw [pow_succ, pow_mul, pow_two, hs]
  have hDK : (D : K) ^ (r / 2) = 1 ∨ (D : K) ^ (r / 2) = -1 := by
    rcases hDe with h | h
    · left
      have := congrArg (algebraMap (ZMod r) K) h
      simpa using this
    · right
      have := congrArg (algebraMap (ZMod r) K) h
      simpa using this
  have hnat : ∀ m : Nat, (m : K) ^ r = (m : K) := by
    intro m
    have := congrArg (algebraMap (ZMod r) K) (ZMod.pow_card (m : ZMod r))
    rwa [map_pow, map_natCast] at this
  have hfrob : α ^ r = (a : K) + (b : K) * ((D : K) ^ (r / 2) * s) := by
    rw [hαv, add_pow_char, mul_pow, hnat, hnat, hsr]
  rcases hDK with h | h
  · left
    have h9 : α ^ r = α := by rw [hfrob, h, one_mul, hαv]
    have h10 : α ^ (r - 1) = 1 := by
      have : α ^ (r - 1) * α = 1 * α := by
        rw [← pow_succ, Nat.sub_add_cancel hr.one_le, h9, one_mul]
      exact mul_right_cancel₀ hα0 this
    exact hord.trans (orderOf_dvd_of_pow_eq_one h10)
  · right
    have h9 : α ^ (r + 1) = 1 := by
      have e : (a : K) + (b : K) * (-1 * s) = (a : K) - (b : K) * s := by ring
      rw [pow_succ, hfrob, h, mul_comm, e, hnorm]
    exact hord.trans (orderOf_dvd_of_pow_eq_one h9)

theorem morrison_dvd {fuel N D q a b r : Nat} (hq : q.Prime) (hr : r.Prime) (hrN : r ∣ N) (hN : 1 < N)
    (h : morrisonCheck fuel N D q a b = true) : q ∣ r - 1 ∨ q ∣ r + 1 := by
  have := Fact.mk hr
  have : CharP (AlgebraicClosure (ZMod r)) r :=
    charP_of_injective_algebraMap (algebraMap (ZMod r) (AlgebraicClosure (ZMod r))).injective r
  obtain ⟨s, hs⟩ := IsAlgClosed.exists_pow_nat_eq (D : AlgebraicClosure (ZMod r)) (n := 2) (by norm_num)
  exact morrison_dvd_aux s (by rw [← hs]; ring) hq hrN hN h

/-- Morrison's test with one large prime factor of `N + 1`. -/
theorem morrison {N : Nat} (fuel D q a b : Nat) (hN : 1 < N) (hq : q.Prime)
    (hc : morrisonCheck fuel N D q a b = true) (hB : N < (q - 1) * (q - 1)) : N.Prime := by
  refine prime_of_factor_gt hN hB ?_
  intro r hr hrN
  rcases morrison_dvd hq hr hrN hN hc with h | h
  · have := Nat.le_of_dvd (by have := hr.two_le; omega) h
    omega
  · have := Nat.le_of_dvd (by omega) h
    omega

end PoS
