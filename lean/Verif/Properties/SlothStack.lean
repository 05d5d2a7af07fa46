import Verif.Model.SlothStack
import Verif.Proofs.Sloth

/-
C109: the recursion depth of the residue test.
-/

namespace PoS

theorem stripTwos_bound (fuel : Nat) (x : Int) (e : Nat) (hx : x ≠ 0) :
    (stripTwos fuel x e).1 ≠ 0 ∧ (stripTwos fuel x e).1.natAbs ≤ x.natAbs := by
  induction fuel generalizing x e with
  | zero => exact ⟨hx, Nat.le_refl _⟩
  | succ fuel ih =>
    unfold stripTwos
    split
    · next h =>
      have e2 := Int.mul_tdiv_add_tmod x 2
      have l : (x.tdiv 2).natAbs = x.natAbs / 2 := Int.natAbs_tdiv x 2
      have hd : x.tdiv 2 ≠ 0 := by omega
      obtain ⟨a, b⟩ := ih (x.tdiv 2) (e + 1) hd
      exact ⟨a, by omega⟩
    · exact ⟨hx, Nat.le_refl _⟩

theorem legendreStack_mono (d : Nat) (x p v : Int) (h : Rug.legendreStack d x p = some v) (d' : Nat) (hd : d ≤ d') :
    Rug.legendreStack d' x p = some v := by
  induction d generalizing x p v d' with
  | zero => cases h
  | succ d ih =>
    obtain ⟨k, rfl⟩ : ∃ k, d' = k + 1 := ⟨d' - 1, by omega⟩
    unfold Rug.legendreStack at h ⊢
    by_cases h0 : x = 0
    · rw [if_pos h0] at h ⊢
      exact h
    · rw [if_neg h0] at h ⊢
      by_cases h1 : x = 1
      · rw [if_pos h1] at h ⊢
        exact h
      · rw [if_neg h1] at h ⊢
        simp only at h ⊢
        by_cases h2 : (stripTwos x.natAbs x 0).1 = 1
        · rw [if_pos h2] at h ⊢
          exact h
        · rw [if_neg h2] at h ⊢
          rw [Option.map_eq_some_iff] at h
          obtain ⟨r, h3, h4⟩ := h
          rw [ih _ _ r h3 k (by omega), Option.map_some, h4]

theorem legendreStack_aux (d : Nat) (x p v : Int) (h : Rug.legendreStack d x p = some v) (f : Nat)
    (hf : x.natAbs < f) : Rug.legendreAux f x p = v := by
  induction d generalizing x p v f with
  | zero => cases h
  | succ d ih =>
    obtain ⟨k, rfl⟩ : ∃ k, f = k + 1 := ⟨f - 1, by omega⟩
    unfold Rug.legendreStack at h
    unfold Rug.legendreAux
    by_cases h0 : x = 0
    · rw [if_pos h0] at h ⊢
      exact Option.some.inj h
    · rw [if_neg h0] at h ⊢
      by_cases h1 : x = 1
      · rw [if_pos h1] at h ⊢
        exact Option.some.inj h
      · rw [if_neg h1] at h ⊢
        simp only at h ⊢
        by_cases h2 : (stripTwos x.natAbs x 0).1 = 1
        · rw [if_pos h2] at h ⊢
          exact Option.some.inj h
        · rw [if_neg h2] at h ⊢
          rw [Option.map_eq_some_iff] at h
          obtain ⟨r, h3, h4⟩ := h
          obtain ⟨a, b⟩ := stripTwos_bound x.natAbs x 0 h0
          rw [ih _ _ r h3 k, h4]
          rw [Int.natAbs_tmod]
          have := Nat.mod_lt p.natAbs (show 0 < (stripTwos x.natAbs x 0).1.natAbs by omega)
          omega

theorem legendreStack_ok (b : Nat) (x p : Int) (hx : x.natAbs < 2 ^ b) :
    ∃ v, Rug.legendreStack (2 * b + 1) x p = some v := by
  induction b generalizing x p with
  | zero =>
    have : x = 0 := by omega
    subst this
    exact ⟨0, rfl⟩
  | succ b ih =>
    rw [show 2 * (b + 1) + 1 = (2 * b + 1) + 1 + 1 by ring]
    unfold Rug.legendreStack
    split
    · exact ⟨_, rfl⟩
    · next h0 =>
      split
      · exact ⟨_, rfl⟩
      · simp only
        split
        · exact ⟨_, rfl⟩
        · obtain ⟨a1, a2⟩ := stripTwos_bound x.natAbs x 0 h0
          generalize (stripTwos x.natAbs x 0).1 = m at *
          suffices h : ∃ v, Rug.legendreStack (2 * b + 1 + 1) (p.tmod m) m = some v by
            obtain ⟨v, hv⟩ := h
            rw [hv]
            exact ⟨_, rfl⟩
          unfold Rug.legendreStack
          split
          · exact ⟨_, rfl⟩
          · next h1 =>
            split
            · exact ⟨_, rfl⟩
            · simp only
              split
              · exact ⟨_, rfl⟩
              · obtain ⟨c1, c2⟩ := stripTwos_bound (p.tmod m).natAbs (p.tmod m) 0 h1
                generalize (stripTwos (p.tmod m).natAbs (p.tmod m) 0).1 = q at *
                rw [Int.natAbs_tmod] at c2
                have hq : q.natAbs < m.natAbs := lt_of_le_of_lt c2 (Nat.mod_lt _ (by omega))
                have hr : (m.tmod q).natAbs < 2 ^ b := by
                  rw [Int.natAbs_tmod]
                  have e := Nat.div_add_mod m.natAbs q.natAbs
                  have l := Nat.mod_lt m.natAbs (show 0 < q.natAbs by omega)
                  have g : 1 ≤ m.natAbs / q.natAbs := Nat.div_pos (by omega) (by omega)
                  have g2 := Nat.mul_le_mul_left q.natAbs g
                  rw [Nat.pow_succ] at hx
                  omega
                obtain ⟨v, hv⟩ := ih _ q hr
                rw [hv]
                exact ⟨_, rfl⟩

theorem num_legendreStack_eq (d : Nat) (x p : Int) : Num.legendreStack d x p = Rug.legendreStack d x p := by
  induction d generalizing x p with
  | zero => rfl
  | succ d ih =>
    unfold Num.legendreStack Rug.legendreStack
    simp only [ih]

/-- For any two integers, the first of at most `b` bits, `2 * b + 1` nested calls are enough for
`legendre` of rug_sloth.rs and of sloth.rs, and both return the value without limit. -/
theorem C109_depth (b : Nat) (x p : Int) (hx : x.natAbs < 2 ^ b) (d : Nat) (hd : 2 * b + 1 ≤ d) :
    Rug.legendreStack d x p = some (Rug.legendre x p) ∧ Num.legendreStack d x p = some (Num.legendre x p) := by
  obtain ⟨v, hv⟩ := legendreStack_ok b x p hx
  have e := legendreStack_aux _ _ _ _ hv (x.natAbs + 1) (by omega)
  have h : Rug.legendreStack d x p = some (Rug.legendre x p) := by
    unfold Rug.legendre
    rw [e]
    exact legendreStack_mono _ _ _ _ hv d hd
  refine ⟨h, ?_⟩
  rw [num_legendreStack_eq, num_legendre_eq]
  exact h

/-- Numbers of which each leaves the last but one when divided by the one before. -/
def chainOf : Nat → Nat
  | 0 => 1
  | 1 => 3
  | n + 2 => 2 * chainOf (n + 1) + chainOf n

theorem chainOf_facts (n : Nat) : chainOf n % 2 = 1 ∧ chainOf (n + 1) % 2 = 1 ∧ chainOf n < chainOf (n + 1) ∧
    chainOf n ≤ 3 ^ n ∧ chainOf (n + 1) ≤ 3 ^ (n + 1) := by
  induction n with
  | zero => simp [chainOf]
  | succ n ih =>
    obtain ⟨h1, h2, h3, h4, h5⟩ := ih
    have e : chainOf (n + 2) = 2 * chainOf (n + 1) + chainOf n := rfl
    have p : 3 ^ (n + 2) = 3 ^ (n + 1) * 3 := pow_succ 3 (n + 1)
    have e2 : chainOf (n + 1 + 1) = chainOf (n + 2) := rfl
    have p2 : 3 ^ (n + 1 + 1) = 3 ^ (n + 2) := rfl
    omega

/-- The depth is not bounded by a constant: for every `n` there are arguments of at most `n * log2 3` bits
for which `n` nested calls are not enough. -/
theorem C109_depth_needed (n : Nat) :
    ∃ x p : Nat, x < p ∧ x ≤ 3 ^ n ∧ Rug.legendreStack n x p = none ∧ Num.legendreStack n x p = none := by
  suffices h : Rug.legendreStack n (chainOf n) (chainOf (n + 1)) = none by
    obtain ⟨-, -, h3, h4, -⟩ := chainOf_facts n
    exact ⟨_, _, h3, h4, h, by rw [num_legendreStack_eq]; exact h⟩
  induction n with
  | zero => rfl
  | succ n ih =>
    obtain ⟨h1, h2, h3, -, -⟩ := chainOf_facts n
    have hpos : 1 < chainOf (n + 1) := by omega
    unfold Rug.legendreStack
    rw [if_neg (by omega), if_neg (by omega)]
    have hs : ∀ f, stripTwos f (chainOf (n + 1) : Int) 0 = ((chainOf (n + 1) : Int), 0) := by
      intro f
      cases f with
      | zero => rfl
      | succ f =>
        unfold stripTwos
        rw [if_neg]
        have : (chainOf (n + 1) : Int).tmod 2 = ((chainOf (n + 1) % 2 : Nat) : Int) := tmod_natCast (chainOf (n + 1)) 2
        rw [this, h2]
        decide
    simp only [hs]
    rw [if_neg (by omega), tmod_natCast]
    have e : chainOf (n + 1 + 1) % chainOf (n + 1) = chainOf n := by
      show (2 * chainOf (n + 1) + chainOf n) % chainOf (n + 1) = _
      rw [Nat.mul_add_mod_self_right, Nat.mod_eq_of_lt h3]
    rw [e, ih]
    rfl

/-- The statements are about something: a number below `P_512` for which 200 nested calls are too few; the
bound of 1025 for numbers of 512 bits is enough. -/
example : Rug.legendreStack 200 (6620215788985212083201715663633768428404785767345659677263292445826406700522056978380818792504886581435342826794428836498682600091464212931728705075589221) P_512 = none ∧ Rug.legendreStack 1025 (6620215788985212083201715663633768428404785767345659677263292445826406700522056978380818792504886581435342826794428836498682600091464212931728705075589221) P_512 ≠ none := by
  decide +kernel

end PoS
