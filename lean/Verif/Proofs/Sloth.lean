import Verif.Model.Sloth
import Verif.Proofs.Basic
import Mathlib.NumberTheory.LegendreSymbol.JacobiSymbol

/-
Helper lemmas about `Verif/Model/Sloth.lean`: `legendre` is the Jacobi symbol and
one sloth step is inverted by one inverse step on non-zero residues.
-/

namespace PoS

open NumberTheorySymbols

/-! ### Modular powers -/

theorem powModAux_eq (fuel x e m acc : Nat) (h : e ≤ fuel) :
    powModAux fuel x e m acc = acc * x ^ e % m := by
  induction fuel generalizing x e acc with
  | zero =>
    have : e = 0 := by omega
    subst this
    simp [powModAux]
  | succ fuel ih =>
    unfold powModAux
    split
    · rename_i h0; subst h0; simp
    · rename_i h0
      rw [ih _ _ _ (by omega)]
      have hx : (x * x % m) ^ (e / 2) ≡ (x * x) ^ (e / 2) [MOD m] := (Nat.mod_modEq _ _).pow _
      split
      · rename_i h1
        have hacc : acc * x % m ≡ acc * x [MOD m] := Nat.mod_modEq _ _
        have := hacc.mul hx
        refine this.trans ?_
        have he : e = 2 * (e / 2) + 1 := by omega
        have : acc * x ^ e = acc * x * (x * x) ^ (e / 2) := by
          conv_lhs => rw [he]
          rw [pow_succ, pow_mul]; ring
        rw [this]
      · rename_i h1
        refine (Nat.ModEq.mul_left acc hx).trans ?_
        have he : e = 2 * (e / 2) := by omega
        have : acc * x ^ e = acc * (x * x) ^ (e / 2) := by
          conv_lhs => rw [he]
          rw [pow_mul]; ring
        rw [this]

theorem powModNat_eq (x e m : Nat) : powModNat x e m = x ^ e % m := by
  unfold powModNat
  rw [powModAux_eq _ _ _ _ _ (Nat.le_refl e), one_mul]

theorem powMod_natCast (x e p : Nat) : powMod (x : Int) (e : Int) (p : Int) = ((x ^ e % p : Nat) : Int) := by
  unfold powMod
  rw [powModNat_eq]
  have h1 : ((x : Int) % (p : Int)).toNat = x % p := by
    rw [← Int.natCast_mod, Int.toNat_natCast]
  rw [h1, Int.toNat_natCast, Int.toNat_natCast, ← Nat.pow_mod]

/-! ### The Jacobi symbol -/

theorem tmod_natCast (a b : Nat) : (a : Int).tmod (b : Int) = ((a % b : Nat) : Int) :=
  (Int.ofNat_tmod a b).symm

theorem tdiv_natCast (a b : Nat) : (a : Int).tdiv (b : Int) = ((a / b : Nat) : Int) :=
  (Int.ofNat_tdiv a b).symm

theorem stripTwos_spec (fuel n e : Nat) (hn : 0 < n) (hf : n ≤ fuel) :
    ∃ k m : Nat, stripTwos fuel (n : Int) e = ((m : Int), e + k) ∧ n = 2 ^ k * m ∧ m % 2 = 1 := by
  induction fuel generalizing n e with
  | zero => omega
  | succ fuel ih =>
    have e2 : ((2 : Nat) : Int) = 2 := rfl
    unfold stripTwos
    rw [← e2, tmod_natCast, tdiv_natCast]
    by_cases h : n % 2 = 0
    · rw [if_pos (by rw [h]; rfl)]
      obtain ⟨k, m, h1, h2, h3⟩ := ih (n / 2) (e + 1) (by omega) (by omega)
      refine ⟨k + 1, m, ?_, ?_, h3⟩
      · rw [h1]
        congr 1
        omega
      · rw [pow_succ]
        have : n = 2 * (n / 2) := by omega
        rw [this, h2]
        ring
    · rw [if_neg (by omega)]
      exact ⟨0, n, by simp, by simp, by omega⟩

theorem jacobi_two_pow (k b : Nat) (hb : b % 2 = 1) :
    J(((2 ^ k : Nat) : Int) | b) =
      if k % 2 = 0 then 1 else if b % 8 = 3 ∨ b % 8 = 5 then -1 else 1 := by
  have hodd : Odd b := Nat.odd_iff.mpr hb
  have h2 : J((2 : Int) | b) = if b % 8 = 3 ∨ b % 8 = 5 then -1 else 1 := by
    rw [jacobiSym.at_two hodd, ZMod.χ₈_nat_eq_if_mod_eight, if_neg (by omega)]
    by_cases h : b % 8 = 1 ∨ b % 8 = 7
    · rw [if_pos h, if_neg (by omega)]
    · rw [if_neg h, if_pos (by omega)]
  have e : ((2 ^ k : Nat) : Int) = (2 : Int) ^ k := by norm_num
  rw [e, jacobiSym.pow_left, h2]
  by_cases hk : k % 2 = 0
  · rw [if_pos hk]
    have hev : Even k := Nat.even_iff.mpr hk
    split
    · exact hev.neg_one_pow
    · simp
  · rw [if_neg hk]
    have hod : Odd k := Nat.odd_iff.mpr (by omega)
    split
    · exact hod.neg_one_pow
    · simp

theorem rug_legendreAux_eq (fuel x p : Nat) (hf : x < fuel) (hp : p % 2 = 1) (hp1 : 1 < p) :
    Rug.legendreAux fuel (x : Int) (p : Int) = J((x : Int) | p) := by
  induction fuel generalizing x p with
  | zero => omega
  | succ fuel ih =>
    unfold Rug.legendreAux
    by_cases h0 : x = 0
    · subst h0
      simp [jacobiSym.zero_left hp1]
    by_cases h1 : x = 1
    · subst h1
      simp
    rw [if_neg (by omega), if_neg (by omega)]
    obtain ⟨k, m, hs, hx, hm⟩ := stripTwos_spec x x 0 (by omega) (Nat.le_refl x)
    have hmx : m ≤ x := by
      rw [hx]; exact Nat.le_mul_of_pos_left m (Nat.pos_of_ne_zero (by simp))
    simp only [Int.natAbs_natCast, hs, Nat.zero_add]
    have e8 : (p : Int).tmod 8 = ((p % 8 : Nat) : Int) := tmod_natCast p 8
    have e4 : (p : Int).tmod 4 = ((p % 4 : Nat) : Int) := tmod_natCast p 4
    have em4 : (m : Int).tmod 4 = ((m % 4 : Nat) : Int) := tmod_natCast m 4
    have epm : (p : Int).tmod (m : Int) = ((p % m : Nat) : Int) := tmod_natCast p m
    rw [e8, e4, em4, epm]
    have hJ : J((x : Int) | p) = J(((2 ^ k : Nat) : Int) | p) * J((m : Int) | p) := by
      rw [← jacobiSym.mul_left, ← Int.natCast_mul, ← hx]
    have hodd : Odd p := Nat.odd_iff.mpr hp
    have hmodd : Odd m := Nat.odd_iff.mpr hm
    -- the value of `s` before reciprocity
    have hs2 : (if k % 2 = 0 then (1 : Int)
        else if ((p % 8 : Nat) : Int) = 3 ∨ ((p % 8 : Nat) : Int) = 5 then -1
          else if ((p % 8 : Nat) : Int) = 1 ∨ ((p % 8 : Nat) : Int) = 7 then 1 else 1)
        = J(((2 ^ k : Nat) : Int) | p) := by
      rw [jacobi_two_pow k p hp]
      have c : (((p % 8 : Nat) : Int) = 3 ∨ ((p % 8 : Nat) : Int) = 5) ↔ (p % 8 = 3 ∨ p % 8 = 5) := by
        omega
      simp only [c, ite_self]
    rw [hs2, hJ]
    by_cases hm1 : m = 1
    · subst hm1
      rw [if_pos (by norm_num)]
      simp
    · rw [if_neg (by omega)]
      have hm3 : 1 < m := by omega
      rw [ih (p % m) m (by have := Nat.mod_lt p (show 0 < m by omega); omega) hm hm3]
      have hmod : J(((p % m : Nat) : Int) | m) = J((p : Int) | m) := by
        rw [Int.natCast_mod, ← jacobiSym.mod_left]
      rw [hmod]
      by_cases hc : p % 4 = 3 ∧ m % 4 = 3
      · rw [if_pos (by omega), jacobiSym.quadratic_reciprocity_three_mod_four hc.2 hc.1]
        ring
      · rw [if_neg (by omega)]
        congr 1
        rcases (show m % 4 = 1 ∨ p % 4 = 1 by omega) with h | h
        · exact (jacobiSym.quadratic_reciprocity_one_mod_four h hodd).symm
        · exact (jacobiSym.quadratic_reciprocity_one_mod_four' hmodd h).symm

theorem rug_legendre_eq (x p : Nat) (hp : p % 2 = 1) (hp1 : 1 < p) :
    Rug.legendre (x : Int) (p : Int) = J((x : Int) | p) := by
  unfold Rug.legendre
  exact rug_legendreAux_eq _ x p (by simp) hp hp1

theorem num_legendreAux_eq (fuel : Nat) (x p : Int) :
    Num.legendreAux fuel x p = Rug.legendreAux fuel x p := by
  induction fuel generalizing x p with
  | zero => rfl
  | succ fuel ih =>
    unfold Num.legendreAux Rug.legendreAux
    simp only [ih]

theorem num_legendre_eq (x p : Int) : Num.legendre x p = Rug.legendre x p :=
  num_legendreAux_eq _ x p

theorem num_singleSloth_eq (x p : Int) : Num.singleSloth x p = Rug.singleSloth x p := by
  unfold Num.singleSloth Rug.singleSloth
  simp only [num_legendre_eq]

theorem num_sloth_eq (x p : Int) (t : Nat) : Num.sloth x p t = Rug.sloth x p t := by
  induction t with
  | zero => rfl
  | succ t ih => unfold Num.sloth Rug.sloth; rw [ih, num_singleSloth_eq]

/-! ### One step -/

section Step

variable {p : Nat} [hpf : Fact p.Prime] (h34 : p % 4 = 3)

include h34

theorem sqrt_pow (x : ZMod p) (hx : IsSquare x) : (x ^ ((p + 1) / 4)) ^ 2 = x := by
  by_cases h0 : x = 0
  · subst h0
    have : (p + 1) / 4 ≠ 0 := by omega
    simp [this]
  · have h1 := (ZMod.euler_criterion p h0).mp hx
    rw [← pow_mul]
    have : (p + 1) / 4 * 2 = p / 2 + 1 := by omega
    rw [this, pow_succ, h1, one_mul]

/-- A residue below `p` whose square is given is determined by its parity. -/
theorem parity_root_unique {a b : Nat} (ha : a < p) (hb : b < p) (hpar : a % 2 = b % 2)
    (hsq : ((a : ZMod p)) ^ 2 = (b : ZMod p) ^ 2) : a = b := by
  rcases sq_eq_sq_iff_eq_or_eq_neg.mp hsq with h | h
  · have := (ZMod.natCast_eq_natCast_iff' a b p).mp h
    rwa [Nat.mod_eq_of_lt ha, Nat.mod_eq_of_lt hb] at this
  · have h2 : ((a + b : Nat) : ZMod p) = 0 := by
      push_cast; rw [h]; ring
    rw [ZMod.natCast_eq_zero_iff] at h2
    obtain ⟨c, hc⟩ := h2
    have : c = 0 ∨ c = 1 := by
      rcases Nat.lt_or_ge c 2 with h | h
      · omega
      · have : p * 2 ≤ p * c := Nat.mul_le_mul_left p h
        omega
    rcases this with rfl | rfl
    · omega
    · omega

omit h34 in
theorem isSquare_of_sq_mod {x y : Nat} (h : y ^ 2 % p = x) : IsSquare (x : ZMod p) := by
  refine ⟨(y : ZMod p), ?_⟩
  rw [← h]
  push_cast
  rw [ZMod.natCast_mod]
  push_cast
  ring

theorem not_isSquare_neg {x : ZMod p} (hx : x ≠ 0) (h : IsSquare x) : ¬ IsSquare (-x) := by
  intro h2
  have : IsSquare (-1 : ZMod p) := by
    have h3 : (-1 : ZMod p) = -x / x := by field_simp
    rw [h3]
    exact h2.div h
  exact (ZMod.exists_sq_eq_neg_one_iff (p := p)).mp this h34

theorem isSquare_neg {x : ZMod p} (h : ¬ IsSquare x) : IsSquare (-x) := by
  have hx : x ≠ 0 := by rintro rfl; exact h (by simp)
  have hm1 : ¬ IsSquare (-1 : ZMod p) := by
    rw [ZMod.exists_sq_eq_neg_one_iff]; omega
  have hp2 : p ≠ 2 := by omega
  rw [ZMod.euler_criterion p hx] at h
  have hne : (-x) ≠ 0 := neg_ne_zero.mpr hx
  rw [ZMod.euler_criterion p hne]
  rw [ZMod.euler_criterion p (by simp)] at hm1
  have h1 := (ZMod.pow_div_two_eq_neg_one_or_one p hx).resolve_left h
  have h2 := (ZMod.pow_div_two_eq_neg_one_or_one p (a := -1) (by simp)).resolve_left hm1
  rw [neg_pow, h1, h2]
  ring

/-- What one encoding step computes on a non-zero residue. -/
theorem rug_singleSloth_spec (x : Nat) (hx0 : 0 < x) (hxp : x < p) :
    (∃ y, y % 2 = 0 ∧ 0 < y ∧ y < p ∧ y ^ 2 % p = x ∧
        Rug.singleSloth (x : Int) (p : Int) = ((y - 1 : Nat) : Int)) ∨
    (∃ y, y % 2 = 1 ∧ y < p ∧ y ^ 2 % p = p - x ∧
        Rug.singleSloth (x : Int) (p : Int) = ((y + 1 : Nat) : Int)) := by
  have hp2 : 2 < p := by omega
  have hxz : (x : ZMod p) ≠ 0 := by
    rw [Ne, ZMod.natCast_eq_zero_iff]
    exact fun h => absurd (Nat.le_of_dvd hx0 h) (by omega)
  have eq4 : ((p : Int) + 1).tdiv 4 = (((p + 1) / 4 : Nat) : Int) := tdiv_natCast (p + 1) 4
  have hleg : Rug.legendre (x : Int) (p : Int) = 1 ↔ IsSquare (x : ZMod p) := by
    rw [rug_legendre_eq x p (by omega) (by omega), ← jacobiSym.legendreSym.to_jacobiSym]
    have := legendreSym.eq_one_iff p (a := (x : Int)) (by push_cast; exact hxz)
    push_cast at this
    exact this
  -- reducing `p - y` for a positive residue
  have hneg : ∀ y : Nat, 0 < y → y < p → ((p : Int) - (y : Int)).tmod (p : Int) = ((p - y : Nat) : Int) := by
    intro y h1 h2
    have : (p : Int) - (y : Int) = ((p - y : Nat) : Int) := by omega
    rw [this, tmod_natCast, Nat.mod_eq_of_lt (by omega)]
  have hmod2 : ∀ y : Nat, (y : Int).tmod 2 = ((y % 2 : Nat) : Int) := fun y => tmod_natCast y 2
  have hinc : ∀ y : Nat, y + 1 < p → ((y : Int) + 1).tmod (p : Int) = ((y + 1 : Nat) : Int) := by
    intro y h
    have := tmod_natCast (y + 1) p
    rw [Nat.mod_eq_of_lt h] at this
    push_cast at this ⊢
    exact this
  have hdec : ∀ y : Nat, 0 < y → y < p → ((y : Int) - 1).tmod (p : Int) = ((y - 1 : Nat) : Int) := by
    intro y h0 h
    have : (y : Int) - 1 = ((y - 1 : Nat) : Int) := by omega
    rw [this, tmod_natCast, Nat.mod_eq_of_lt (by omega)]
  have hsqneg : ∀ y : Nat, y < p → (p - y) ^ 2 % p = y ^ 2 % p := by
    intro y hy
    have : ((p - y : Nat) : ZMod p) ^ 2 = (y : ZMod p) ^ 2 := by
      rw [Nat.cast_sub (by omega), ZMod.natCast_self]; ring
    have h2 := (ZMod.natCast_eq_natCast_iff' ((p - y) ^ 2) (y ^ 2) p).mp (by push_cast; exact_mod_cast this)
    exact h2
  -- the root computed by exponentiation
  have hroot : ∀ a : Nat, 0 < a → a < p → IsSquare (a : ZMod p) →
      0 < a ^ ((p + 1) / 4) % p ∧ a ^ ((p + 1) / 4) % p < p ∧ (a ^ ((p + 1) / 4) % p) ^ 2 % p = a := by
    intro a ha0 hap hsq
    have h1 := sqrt_pow h34 (a : ZMod p) hsq
    have h2 : (((a ^ ((p + 1) / 4) % p) ^ 2 : Nat) : ZMod p) = (a : ZMod p) := by
      push_cast
      rw [ZMod.natCast_mod]
      push_cast
      exact h1
    have h3 := (ZMod.natCast_eq_natCast_iff' _ _ p).mp h2
    rw [Nat.mod_eq_of_lt hap] at h3
    refine ⟨?_, Nat.mod_lt _ (by omega), h3⟩
    rcases Nat.eq_zero_or_pos (a ^ ((p + 1) / 4) % p) with h | h
    · rw [h] at h3; simp at h3; omega
    · exact h
  by_cases hsq : IsSquare (x : ZMod p)
  · left
    obtain ⟨hr0, hrp, hrs⟩ := hroot x hx0 hxp hsq
    set r := x ^ ((p + 1) / 4) % p with hr
    have hval : Rug.singleSloth (x : Int) (p : Int) =
        (let y : Int := if (r : Int).tmod 2 = 1 then ((p : Int) - r).tmod p else (r : Int)
         if y.tmod 2 = 1 then (y + 1).tmod p else (y - 1).tmod p) := by
      unfold Rug.singleSloth
      simp only [if_pos (hleg.mpr hsq), eq4, powMod_natCast, ← hr]
    by_cases hodd : r % 2 = 1
    · refine ⟨p - r, by omega, by omega, by omega, by rw [hsqneg r hrp]; exact hrs, ?_⟩
      rw [hval]
      simp only [hmod2 r, hodd, Nat.cast_one, if_true, hneg r hr0 hrp]
      rw [hmod2, if_neg (by omega), hdec _ (by omega) (by omega)]
    · refine ⟨r, by omega, hr0, hrp, hrs, ?_⟩
      rw [hval]
      have : (((r % 2 : Nat) : Int) = 1) = False := eq_false (by omega)
      simp only [hmod2 r, this, if_false]
      rw [hdec r hr0 hrp]
  · right
    have hxx : ((p : Int) - (x : Int)).tmod (p : Int) = ((p - x : Nat) : Int) := hneg x hx0 hxp
    have hnsq : IsSquare ((p - x : Nat) : ZMod p) := by
      rw [Nat.cast_sub (by omega), ZMod.natCast_self, zero_sub]
      exact isSquare_neg h34 hsq
    obtain ⟨hr0, hrp, hrs⟩ := hroot (p - x) (by omega) (by omega) hnsq
    set r := (p - x) ^ ((p + 1) / 4) % p with hr
    have hval : Rug.singleSloth (x : Int) (p : Int) =
        (let y : Int := if (r : Int).tmod 2 = 0 then ((p : Int) - r).tmod p else (r : Int)
         if y.tmod 2 = 1 then (y + 1).tmod p else (y - 1).tmod p) := by
      unfold Rug.singleSloth
      simp only [if_neg (fun h => hsq (hleg.mp h)), eq4, hxx, powMod_natCast, ← hr]
    by_cases hodd : r % 2 = 0
    · refine ⟨p - r, by omega, by omega, by rw [hsqneg r hrp]; exact hrs, ?_⟩
      rw [hval]
      simp only [hmod2 r, hodd, Nat.cast_zero, if_true, hneg r hr0 hrp]
      rw [hmod2, if_pos (by omega), hinc _ (by omega)]
    · refine ⟨r, by omega, hrp, hrs, ?_⟩
      rw [hval]
      have : (((r % 2 : Nat) : Int) = 0) = False := eq_false (by omega)
      simp only [hmod2 r, this, if_false]
      rw [if_pos (by omega), hinc r (by omega)]

omit hpf h34 in
/-- What one decoding step computes on a non-zero residue. -/
theorem rug_singleSlothInv_odd (y : Nat) (hy0 : 0 < y) (hyp : y < p) (hy : y % 2 = 0) :
    Rug.singleSlothInv ((y - 1 : Nat) : Int) (p : Int) = ((y ^ 2 % p : Nat) : Int) := by
  have e1 : ((y - 1 : Nat) : Int).tmod 2 = (((y - 1) % 2 : Nat) : Int) := tmod_natCast _ 2
  have e2 : (((y - 1 : Nat) : Int) + 1).tmod (p : Int) = (y : Int) := by
    have : ((y - 1 : Nat) : Int) + 1 = (y : Int) := by omega
    rw [this, tmod_natCast, Nat.mod_eq_of_lt hyp]
  have e3 : (y : Int).tmod 2 = ((y % 2 : Nat) : Int) := tmod_natCast _ 2
  have e4 : powMod (y : Int) 2 (p : Int) = ((y ^ 2 % p : Nat) : Int) := powMod_natCast y 2 p
  unfold Rug.singleSlothInv
  have c : ((((y - 1) % 2 : Nat) : Int) = 1) = True := eq_true (by omega)
  simp only [e1, e2, c, if_true]
  rw [e3, if_neg (by omega), e4]

omit hpf in
theorem rug_singleSlothInv_even (y : Nat) (hyp : y < p) (hy : y % 2 = 1) :
    Rug.singleSlothInv ((y + 1 : Nat) : Int) (p : Int) = ((p - y ^ 2 % p : Nat) : Int) := by
  have e1 : ((y + 1 : Nat) : Int).tmod 2 = (((y + 1) % 2 : Nat) : Int) := tmod_natCast _ 2
  have e2 : (((y + 1 : Nat) : Int) - 1).tmod (p : Int) = (y : Int) := by
    have : ((y + 1 : Nat) : Int) - 1 = (y : Int) := by omega
    rw [this, tmod_natCast, Nat.mod_eq_of_lt hyp]
  have e3 : (y : Int).tmod 2 = ((y % 2 : Nat) : Int) := tmod_natCast _ 2
  have e4 : powMod (y : Int) 2 (p : Int) = ((y ^ 2 % p : Nat) : Int) := powMod_natCast y 2 p
  unfold Rug.singleSlothInv
  have c : ((((y + 1) % 2 : Nat) : Int) = 1) = False := eq_false (by omega)
  simp only [e1, e2, c, if_false]
  rw [e3, if_pos (by omega), e4, tmod_natCast, Nat.mod_mod]
  have := Nat.mod_lt (y ^ 2) (show 0 < p by omega)
  omega

/-- One step forward, one step back; the intermediate value is a non-zero residue. -/
theorem rug_step_round (x : Nat) (hx0 : 0 < x) (hxp : x < p) :
    ∃ z : Nat, Rug.singleSloth (x : Int) (p : Int) = (z : Int) ∧ 0 < z ∧ z < p ∧
      Rug.singleSlothInv (z : Int) (p : Int) = (x : Int) := by
  rcases rug_singleSloth_spec h34 x hx0 hxp with ⟨y, h1, h2, h3, h4, h5⟩ | ⟨y, h1, h3, h4, h5⟩
  · refine ⟨y - 1, h5, by omega, by omega, ?_⟩
    rw [rug_singleSlothInv_odd y h2 h3 h1, h4]
  · refine ⟨y + 1, h5, by omega, by omega, ?_⟩
    rw [rug_singleSlothInv_even h34 y h3 h1, h4]
    have : p - (p - x) = x := by omega
    rw [this]

/-- One step back, one step forward. -/
theorem rug_step_round' (z : Nat) (hz0 : 0 < z) (hzp : z < p) :
    ∃ x : Nat, Rug.singleSlothInv (z : Int) (p : Int) = (x : Int) ∧ 0 < x ∧ x < p ∧
      Rug.singleSloth (x : Int) (p : Int) = (z : Int) := by
  have hsqpos : ∀ y : Nat, 0 < y → y < p → 0 < y ^ 2 % p := by
    intro y h0 hy
    rcases Nat.eq_zero_or_pos (y ^ 2 % p) with h | h
    · exfalso
      have hd : p ∣ y ^ 2 := Nat.dvd_of_mod_eq_zero h
      have := hpf.out.dvd_of_dvd_pow hd
      exact absurd (Nat.le_of_dvd h0 this) (by omega)
    · exact h
  have hcast : ∀ y a : Nat, y ^ 2 % p = a → ((y : ZMod p)) ^ 2 = (a : ZMod p) := by
    intro y a h
    rw [← h, ZMod.natCast_mod]
    push_cast
    ring
  by_cases hodd : z % 2 = 1
  · have hpar : (z + 1) % 2 = 0 := by omega
    have hlt : z + 1 < p := by omega
    have hinv := rug_singleSlothInv_odd (z + 1) (by omega) hlt hpar
    rw [Nat.add_sub_cancel] at hinv
    have hxp : (z + 1) ^ 2 % p < p := Nat.mod_lt _ (by omega)
    have hx0 := hsqpos (z + 1) (by omega) hlt
    refine ⟨_, hinv, hx0, hxp, ?_⟩
    rcases rug_singleSloth_spec h34 _ hx0 hxp with ⟨y, h1, h2, h3, h4, h5⟩ | ⟨y, h1, h3, h4, h5⟩
    · have : y = z + 1 := parity_root_unique h34 h3 hlt (by omega)
        (by rw [hcast y _ h4, hcast (z + 1) _ rfl])
      rw [h5, this]; simp
    · exfalso
      have hs : IsSquare (((z + 1) ^ 2 % p : Nat) : ZMod p) := isSquare_of_sq_mod rfl
      have hs2 : IsSquare ((p - (z + 1) ^ 2 % p : Nat) : ZMod p) := isSquare_of_sq_mod h4
      rw [Nat.cast_sub (by omega), ZMod.natCast_self, zero_sub] at hs2
      refine not_isSquare_neg h34 ?_ hs hs2
      rw [Ne, ZMod.natCast_eq_zero_iff]
      exact fun h => absurd (Nat.le_of_dvd hx0 h) (by omega)
  · have hpar : (z - 1) % 2 = 1 := by omega
    have hlt : z - 1 < p := by omega
    have hinv := rug_singleSlothInv_even h34 (z - 1) hlt hpar
    rw [Nat.sub_add_cancel (by omega)] at hinv
    have hs0 := hsqpos (z - 1) (by omega) hlt
    have hsp : (z - 1) ^ 2 % p < p := Nat.mod_lt _ (by omega)
    refine ⟨_, hinv, by omega, by omega, ?_⟩
    rcases rug_singleSloth_spec h34 (p - (z - 1) ^ 2 % p) (by omega) (by omega) with
      ⟨y, h1, h2, h3, h4, h5⟩ | ⟨y, h1, h3, h4, h5⟩
    · exfalso
      have hs : IsSquare (((z - 1) ^ 2 % p : Nat) : ZMod p) := isSquare_of_sq_mod rfl
      have hs2 : IsSquare ((p - (z - 1) ^ 2 % p : Nat) : ZMod p) := isSquare_of_sq_mod h4
      rw [Nat.cast_sub (by omega), ZMod.natCast_self, zero_sub] at hs2
      refine not_isSquare_neg h34 ?_ hs hs2
      rw [Ne, ZMod.natCast_eq_zero_iff]
      exact fun h => absurd (Nat.le_of_dvd hs0 h) (by omega)
    · have h6 : p - (p - (z - 1) ^ 2 % p) = (z - 1) ^ 2 % p := by omega
      rw [h6] at h4
      have : y = z - 1 := parity_root_unique h34 h3 hlt (by omega)
        (by rw [hcast y _ h4, hcast (z - 1) _ rfl])
      rw [h5, this, Nat.sub_add_cancel (by omega)]

end Step

theorem rug_sloth_succ' (x p : Int) (t : Nat) :
    Rug.sloth x p (t + 1) = Rug.sloth (Rug.singleSloth x p) p t := by
  induction t with
  | zero => rfl
  | succ t ih =>
    show Rug.singleSloth (Rug.sloth x p (t + 1)) p = _
    rw [ih]; rfl

theorem rug_slothInv_succ' (x p : Int) (t : Nat) :
    Rug.slothInv x p (t + 1) = Rug.slothInv (Rug.singleSlothInv x p) p t := by
  induction t with
  | zero => rfl
  | succ t ih =>
    show Rug.singleSlothInv (Rug.slothInv x p (t + 1)) p = _
    rw [ih]; rfl

theorem num_slothInv_succ' (x p : Int) (t : Nat) :
    Num.slothInv x p (t + 1) = Num.slothInv (Num.singleSlothInv x p) p t := by
  induction t with
  | zero => rfl
  | succ t ih =>
    show Num.singleSlothInv (Num.slothInv x p (t + 1)) p = _
    rw [ih]; rfl

theorem rug_sloth_round {p : Nat} (hp : p.Prime) (h34 : p % 4 = 3) (t x : Nat) (hx0 : 0 < x)
    (hxp : x < p) :
    ∃ z : Nat, Rug.sloth (x : Int) (p : Int) t = (z : Int) ∧ 0 < z ∧ z < p ∧
      Rug.slothInv (z : Int) (p : Int) t = (x : Int) := by
  have : Fact p.Prime := ⟨hp⟩
  induction t with
  | zero => exact ⟨x, rfl, hx0, hxp, rfl⟩
  | succ t ih =>
    obtain ⟨z, h1, h2, h3, h4⟩ := ih
    obtain ⟨w, g1, g2, g3, g4⟩ := rug_step_round h34 z h2 h3
    refine ⟨w, ?_, g2, g3, ?_⟩
    · show Rug.singleSloth (Rug.sloth (x : Int) (p : Int) t) p = _
      rw [h1, g1]
    · rw [rug_slothInv_succ', g4, h4]

theorem rug_sloth_round' {p : Nat} (hp : p.Prime) (h34 : p % 4 = 3) (t z : Nat) (hz0 : 0 < z)
    (hzp : z < p) :
    ∃ x : Nat, Rug.slothInv (z : Int) (p : Int) t = (x : Int) ∧ 0 < x ∧ x < p ∧
      Rug.sloth (x : Int) (p : Int) t = (z : Int) := by
  have : Fact p.Prime := ⟨hp⟩
  induction t with
  | zero => exact ⟨z, rfl, hz0, hzp, rfl⟩
  | succ t ih =>
    obtain ⟨x, h1, h2, h3, h4⟩ := ih
    obtain ⟨w, g1, g2, g3, g4⟩ := rug_step_round' h34 x h2 h3
    refine ⟨w, ?_, g2, g3, ?_⟩
    · show Rug.singleSlothInv (Rug.slothInv (z : Int) (p : Int) t) p = _
      rw [h1, g1]
    · rw [rug_sloth_succ', g4, h4]

/-- On non-zero residues the two inverse steps agree. -/
theorem num_singleSlothInv_eq {p : Nat} (hp : p.Prime) (h34 : p % 4 = 3) (z : Nat) (hz0 : 0 < z)
    (hzp : z < p) :
    Num.singleSlothInv (z : Int) (p : Int) = Rug.singleSlothInv (z : Int) (p : Int) := by
  have : Fact p.Prime := ⟨hp⟩
  obtain ⟨x, h1, h2, h3, -⟩ := rug_step_round' h34 z hz0 hzp
  have hpw : ∀ y : Nat, ((y : Int) ^ 2).tmod (p : Int) = powMod (y : Int) 2 (p : Int) := by
    intro y
    rw [show (2 : Int) = ((2 : Nat) : Int) from rfl, powMod_natCast, ← tmod_natCast]
    push_cast; rfl
  rw [h1]
  unfold Rug.singleSlothInv at h1
  unfold Num.singleSlothInv
  have e1 : (z : Int).tmod 2 = ((z % 2 : Nat) : Int) := tmod_natCast _ 2
  have hy : ∃ y : Nat, (if (z : Int).tmod 2 = 1 then ((z : Int) + 1).tmod (p : Int)
      else ((z : Int) - 1).tmod (p : Int)) = (y : Int) := by
    split
    · exact ⟨(z + 1) % p, by rw [← tmod_natCast]; push_cast; rfl⟩
    · refine ⟨(z - 1) % p, ?_⟩
      rw [← tmod_natCast]
      congr 1
      omega
  obtain ⟨y, hy⟩ := hy
  simp only [hy] at h1 ⊢
  rw [hpw]
  split
  · rename_i h
    rw [if_pos h] at h1
    have e2 : powMod (y : Int) 2 (p : Int) = ((y ^ 2 % p : Nat) : Int) := powMod_natCast y 2 p
    rw [e2, tmod_natCast, Nat.mod_mod] at h1
    rw [e2]
    rw [h1, tmod_natCast, Nat.mod_eq_of_lt h3]
  · rename_i h
    rw [if_neg h] at h1
    exact h1

theorem num_slothInv_eq {p : Nat} (hp : p.Prime) (h34 : p % 4 = 3) (t z : Nat) (hz0 : 0 < z)
    (hzp : z < p) :
    Num.slothInv (z : Int) (p : Int) t = Rug.slothInv (z : Int) (p : Int) t := by
  induction t with
  | zero => rfl
  | succ t ih =>
    obtain ⟨x, h1, h2, h3, -⟩ := rug_sloth_round' hp h34 t z hz0 hzp
    show Num.singleSlothInv (Num.slothInv z p t) p = Rug.singleSlothInv (Rug.slothInv z p t) p
    rw [ih, h1, num_singleSlothInv_eq hp h34 x h2 h3]

end PoS
