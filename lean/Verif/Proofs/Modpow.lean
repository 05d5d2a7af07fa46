import Verif.Proofs.Sloth

/-
Helper lemma for `fast_modpow`.
-/

namespace PoS

theorem fastModpowLoop_eq (fuel : Nat) (x t p res : Int) (ht : t.toNat ≤ fuel) (ht0 : 0 ≤ t) (k : Int)
    (hres : res = k.tmod p) : fastModpowLoop fuel x t p res = (k * x ^ t.toNat).tmod p := by
  induction fuel generalizing x t res k with
  | zero =>
    have : t = 0 := by omega
    subst this
    simp [fastModpowLoop, hres]
  | succ fuel ih =>
    unfold fastModpowLoop
    by_cases h : t > 0
    · rw [if_pos h]
      obtain ⟨n, rfl⟩ := Int.eq_ofNat_of_zero_le ht0
      have e2 : ((n : Int)).tdiv 2 = ((n / 2 : Nat) : Int) := tdiv_natCast n 2
      simp only [e2]
      have hx : ∀ m : Nat, ∀ c : Int, (c * ((x * x).tmod p) ^ m).tmod p = (c * (x * x) ^ m).tmod p := by
        intro m
        induction m with
        | zero => intro c; simp
        | succ m ihm =>
          intro c
          rw [pow_succ, show c * ((x * x).tmod p ^ m * (x * x).tmod p) = (c * (x * x).tmod p) * (x * x).tmod p ^ m by ring,
            ihm, show c * (x * x).tmod p * (x * x) ^ m = (c * (x * x) ^ m) * (x * x).tmod p by ring,
            Int.mul_tmod, Int.tmod_tmod, ← Int.mul_tmod]
          congr 1
          ring
      have hn : x ^ n = (x * x) ^ (n / 2) * x ^ (n % 2) := by
        rw [← pow_two, ← pow_mul, ← pow_add, Nat.div_add_mod]
      have hmod : (n : Int) % 2 = ((n % 2 : Nat) : Int) := by omega
      split
      · next h1 =>
        have h1' : n % 2 = 1 := by omega
        rw [ih _ _ _ (by simp at ht ⊢; omega) (by omega) (k * x)
          (by rw [hres, Int.mul_tmod, Int.tmod_tmod, ← Int.mul_tmod]), Int.toNat_natCast, hx]
        rw [Int.toNat_natCast, hn, h1']
        congr 1
        ring
      · next h1 =>
        have h1' : n % 2 = 0 := by omega
        rw [ih _ _ _ (by simp at ht ⊢; omega) (by omega) k hres, Int.toNat_natCast, hx]
        rw [Int.toNat_natCast, hn, h1']
        congr 1
        ring
    · have : t = 0 := by omega
      subst this
      simp [hres]

end PoS
