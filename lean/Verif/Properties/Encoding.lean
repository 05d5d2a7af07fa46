import Verif.Proofs.Vde
import Verif.Proofs.Common
import Verif.Proofs.Primes
import Verif.Proofs.Modpow
import Mathlib.Data.Set.Function

/-
Properties of the delay encoding and of the masking arithmetic: C09-C13, C51, C54.
-/

namespace PoS

/-! ### C09: a bijection on the non-zero residues -/

/-- Both implementations, both directions: `t` rounds of encoding and decoding are
mutually inverse bijections of `1 .. p-1`. -/
theorem C09_sloth_bijection {p : Nat} (hp : p.Prime) (h34 : p % 4 = 3) (t : Nat) :
    Set.BijOn (fun x => Rug.sloth x (p : Int) t) (Set.Icc 1 ((p : Int) - 1)) (Set.Icc 1 ((p : Int) - 1)) ∧
    Set.BijOn (fun x => Rug.slothInv x (p : Int) t) (Set.Icc 1 ((p : Int) - 1)) (Set.Icc 1 ((p : Int) - 1)) ∧
    Set.InvOn (fun x => Rug.slothInv x (p : Int) t) (fun x => Rug.sloth x (p : Int) t)
      (Set.Icc 1 ((p : Int) - 1)) (Set.Icc 1 ((p : Int) - 1)) := by
  have conv : ∀ x : Int, x ∈ Set.Icc (1 : Int) ((p : Int) - 1) → ∃ n : Nat, x = (n : Int) ∧ 0 < n ∧ n < p := by
    rintro x ⟨h1, h2⟩
    exact ⟨x.toNat, by omega, by omega, by omega⟩
  have mk : ∀ n : Nat, 0 < n → n < p → ((n : Int)) ∈ Set.Icc (1 : Int) ((p : Int) - 1) := by
    intro n h1 h2; constructor <;> omega
  have hmap : Set.MapsTo (fun x => Rug.sloth x (p : Int) t) (Set.Icc 1 ((p : Int) - 1))
      (Set.Icc 1 ((p : Int) - 1)) := by
    intro x hx
    obtain ⟨n, rfl, h1, h2⟩ := conv x hx
    obtain ⟨z, e, z0, zp, -⟩ := rug_sloth_round hp h34 t n h1 h2
    show Rug.sloth (n : Int) (p : Int) t ∈ _
    rw [e]; exact mk z z0 zp
  have hmap' : Set.MapsTo (fun x => Rug.slothInv x (p : Int) t) (Set.Icc 1 ((p : Int) - 1))
      (Set.Icc 1 ((p : Int) - 1)) := by
    intro x hx
    obtain ⟨n, rfl, h1, h2⟩ := conv x hx
    obtain ⟨z, e, z0, zp, -⟩ := rug_sloth_round' hp h34 t n h1 h2
    show Rug.slothInv (n : Int) (p : Int) t ∈ _
    rw [e]; exact mk z z0 zp
  have hinv : Set.InvOn (fun x => Rug.slothInv x (p : Int) t) (fun x => Rug.sloth x (p : Int) t)
      (Set.Icc 1 ((p : Int) - 1)) (Set.Icc 1 ((p : Int) - 1)) := by
    constructor
    · intro x hx
      obtain ⟨n, rfl, h1, h2⟩ := conv x hx
      obtain ⟨z, e, z0, zp, e'⟩ := rug_sloth_round hp h34 t n h1 h2
      show Rug.slothInv (Rug.sloth (n : Int) (p : Int) t) (p : Int) t = _
      rw [e, e']
    · intro x hx
      obtain ⟨n, rfl, h1, h2⟩ := conv x hx
      obtain ⟨z, e, z0, zp, e'⟩ := rug_sloth_round' hp h34 t n h1 h2
      show Rug.sloth (Rug.slothInv (n : Int) (p : Int) t) (p : Int) t = _
      rw [e, e']
  exact ⟨hinv.bijOn hmap hmap', hinv.symm.bijOn hmap' hmap, hinv⟩

/-- The `num_bigint` implementation agrees with the `rug` implementation on the
non-zero residues, in both directions, so C09 holds for it as well. -/
theorem C09_num_agrees {p : Nat} (hp : p.Prime) (h34 : p % 4 = 3) (t : Nat) (x : Int)
    (hx : x ∈ Set.Icc (1 : Int) ((p : Int) - 1)) :
    Num.sloth x (p : Int) t = Rug.sloth x (p : Int) t ∧
    Num.slothInv x (p : Int) t = Rug.slothInv x (p : Int) t := by
  refine ⟨num_sloth_eq _ _ _, ?_⟩
  obtain ⟨h1, h2⟩ := hx
  obtain ⟨n, rfl⟩ := Int.eq_ofNat_of_zero_le (by omega : 0 ≤ x)
  exact num_slothInv_eq hp h34 t n (by omega) (by omega)

/-- The square root really is what one round computes: a round undoes squaring up to
sign and a swap of neighbours, for the 64-bit shipped modulus. -/
example : ∃ p : Nat, p.Prime ∧ p % 4 = 3 ∧ (p : Int) = P_64 :=
  ⟨13758676365741467507, prime_P_64, by norm_num, rfl⟩

/-! ### C10: zero is lost -/

/-- The exact result of the round trip of zero. -/
theorem C10_zero_lost {p : Nat} (hp : p.Prime) (h34 : p % 4 = 3) (h3 : 3 < p) (t : Nat) (ht : 0 < t) :
    Rug.slothInv (Rug.sloth 0 (p : Int) t) (p : Int) t = (if t = 1 then 4 else (p : Int) - 4) ∧
    Rug.slothInv (Rug.sloth 0 (p : Int) t) (p : Int) t ≠ 0 := by
  obtain ⟨h1, h2⟩ := rug_zero_round hp h34 t h3
  by_cases h : t = 1
  · rw [if_pos h, h1 h]; exact ⟨rfl, by norm_num⟩
  · rw [if_neg h, h2 (by omega)]; exact ⟨rfl, by omega⟩

/-- Zero is the only residue that is lost. -/
theorem C10_only_zero {p : Nat} (hp : p.Prime) (h34 : p % 4 = 3) (h3 : 3 < p) (t : Nat) (ht : 0 < t)
    (x : Nat) (hx : x < p) :
    Rug.slothInv (Rug.sloth (x : Int) (p : Int) t) (p : Int) t = (x : Int) ↔ x ≠ 0 := by
  constructor
  · rintro h rfl
    exact (C10_zero_lost hp h34 h3 t ht).2 h
  · intro h
    obtain ⟨z, e, -, -, e'⟩ := rug_sloth_round hp h34 t x (by omega) hx
    rw [e, e']

example : Rug.slothInv (Rug.sloth 0 7 1) 7 1 = 4 ∧ Rug.slothInv (Rug.sloth 0 7 2) 7 2 = 3 := by
  decide

/-! ### C11: the residue test -/

/-- `legendre` is the Jacobi symbol for every odd modulus above 1 (both implementations). -/
theorem C11_legendre_jacobi (x p : Nat) (hodd : p % 2 = 1) (hp1 : 1 < p) :
    Rug.legendre (x : Int) (p : Int) = jacobiSym (x : Int) p ∧
    Num.legendre (x : Int) (p : Int) = jacobiSym (x : Int) p := by
  rw [num_legendre_eq]
  exact ⟨rug_legendre_eq x p hodd hp1, rug_legendre_eq x p hodd hp1⟩

/-- For an odd prime it answers 1 exactly on the non-zero squares. -/
theorem C11_legendre_square (x p : Nat) (hp : p.Prime) (hodd : p % 2 = 1) :
    Rug.legendre (x : Int) (p : Int) = 1 ↔ x % p ≠ 0 ∧ ∃ y : Nat, y * y % p = x % p := by
  have := Fact.mk hp
  rw [rug_legendre_eq x p hodd hp.one_lt, ← jacobiSym.legendreSym.to_jacobiSym]
  constructor
  · intro h
    have hx : ((x : Int) : ZMod p) ≠ 0 := by
      intro h0
      rw [(legendreSym.eq_zero_iff p (x : Int)).mpr h0] at h
      exact zero_ne_one h
    refine ⟨?_, ?_⟩
    · intro h0
      apply hx
      rw [Int.cast_natCast, ZMod.natCast_eq_zero_iff]
      exact Nat.dvd_of_mod_eq_zero h0
    · obtain ⟨y, hy⟩ := (legendreSym.eq_one_iff p hx).mp h
      refine ⟨y.val, ?_⟩
      have : ((y.val * y.val : Nat) : ZMod p) = ((x : Nat) : ZMod p) := by
        push_cast
        rw [ZMod.natCast_zmod_val, ← hy, Int.cast_natCast]
      exact (ZMod.natCast_eq_natCast_iff' _ _ _).mp this
  · rintro ⟨h0, y, hy⟩
    have hx : ((x : Int) : ZMod p) ≠ 0 := by
      rw [Int.cast_natCast, Ne, ZMod.natCast_eq_zero_iff]
      intro hd; exact h0 (Nat.mod_eq_zero_of_dvd hd)
    refine (legendreSym.eq_one_iff p hx).mpr ⟨(y : ZMod p), ?_⟩
    have := (ZMod.natCast_eq_natCast_iff' _ _ _).mpr hy
    push_cast at this
    rw [Int.cast_natCast, this]

/-- The excluded modulus 1 really is an exception. -/
theorem C11_modulus_one : Rug.legendre 0 1 = 0 ∧ jacobiSym 0 1 = 1 := by
  constructor
  · decide
  · simp

example : Rug.legendre 2 15 = 1 ∧ Rug.legendre 7 15 = -1 ∧ Rug.legendre 3 15 = 0 := by decide

/-! ### C12: byte strings -/

/-- One unit, `rug` implementation: encoding then decoding, and decoding then encoding. -/
theorem C12_vde_round_trip {p : Nat} (hp : p.Prime) (h34 : p % 4 = 3) (x : Bytes) (t : Nat) (mode : String)
    (h0 : 0 < leNat x) (hlt : leNat x < p) (hfit : p ≤ 256 ^ x.length) :
    (Rug.vde x (p : Int) t mode x.length).length = x.length ∧
    Rug.vdeInv (Rug.vde x (p : Int) t mode x.length) (p : Int) t mode x.length = x ∧
    (Rug.vdeInv x (p : Int) t mode x.length).length = x.length ∧
    Rug.vde (Rug.vdeInv x (p : Int) t mode x.length) (p : Int) t mode x.length = x := by
  obtain ⟨a1, -, -, a4, a5⟩ := rug_vde_spec hp h34 (t := t) (mode := mode) h0 hlt hfit
  obtain ⟨b1, -, -, b4, b5⟩ := rug_vde_spec' hp h34 (t := t) (mode := mode) h0 hlt hfit
  exact ⟨a1, leNat_inj a4 a5, b1, leNat_inj b4 b5⟩

/-- Any number of chunks, `num_bigint` implementation. -/
theorem C12_num_vde_round_trip {p : Nat} (hp : p.Prime) (h34 : p % 4 = 3) (us : List Bytes) (l t : Nat)
    (mode : String) (hl : 0 < l) (hfit : p ≤ 256 ^ l)
    (hus : ∀ u ∈ us, u.length = l ∧ 0 < leNat u ∧ leNat u < p) :
    ∃ y, Num.vde us.flatten (p : Int) t mode l = .ok y ∧ y.length = us.flatten.length ∧
      Num.vdeInv y (p : Int) t mode l = .ok us.flatten := by
  obtain ⟨vs, h1, h2, h3, h4⟩ := num_vde_units hp h34 (t := t) (mode := mode) hfit us hus []
  refine ⟨vs.flatten, ?_, ?_, ?_⟩
  · unfold Num.vde
    rw [toUnits_flatten us l hl (fun u hu => (hus u hu).1), bind_ok, h3, List.nil_append]
  · rw [flatten_length_const vs l h1, flatten_length_const us l (fun u hu => (hus u hu).1), h2]
  · unfold Num.vdeInv
    rw [toUnits_flatten vs l hl h1, bind_ok, h4 [], List.nil_append]

example : (13758676365741467507 : Nat) ≤ 256 ^ ([1, 2, 3, 4, 5, 6, 7, 8] : Bytes).length ∧
    0 < leNat [1, 2, 3, 4, 5, 6, 7, 8] ∧ leNat [1, 2, 3, 4, 5, 6, 7, 8] < 13758676365741467507 := by
  decide

/-! ### C13: masking -/

/-- Masking then unmasking, and unmasking then masking. -/
theorem C13_mask_round_trip (u h : Bytes) (p : Nat) (hp : 0 < p) (hfit : p ≤ 256 ^ u.length)
    (hu : leNat u < p) (hh : leNat h ≤ p) :
    (∃ r, modadd u h (p : Int) = .ok r ∧ r.length = u.length ∧ leNat r < p ∧ modsub r h (p : Int) = .ok u) ∧
    (∃ r, modsub u h (p : Int) = .ok r ∧ r.length = u.length ∧ leNat r < p ∧ modadd r h (p : Int) = .ok u) := by
  constructor
  · obtain ⟨r, h1, h2, h3⟩ := modadd_spec (u := u) (h := h) hp hfit
    exact ⟨r, h1, h2, by rw [h3]; exact Nat.mod_lt _ hp, modsub_modadd hp hu hh h1 h2 rfl hfit⟩
  · obtain ⟨r, h1, h2, h3⟩ := modsub_spec (u := u) (h := h) hp hfit (by omega)
    refine ⟨r, h1, h2, by rw [h3]; exact Nat.mod_lt _ hp, ?_⟩
    obtain ⟨w, g1, g2, g3⟩ := modadd_spec (u := r) (h := h) hp (by rw [h2]; exact hfit)
    rw [g1]
    congr 1
    refine leNat_inj (by omega) ?_
    rw [g3, h3, Nat.mod_add_mod, show leNat u + p - leNat h + leNat h = leNat u + p by omega,
      Nat.add_mod_right, Nat.mod_eq_of_lt hu]

example : modadd [200, 1] [100, 0] 509 = .ok [47, 0] ∧ modsub [47, 0] [100, 0] 509 = .ok [200, 1] := by
  decide

/-! ### C51: modular exponentiation helper -/

/-- `fast_modpow` is the power with the truncated remainder; for a non-negative base it
is the ordinary residue. -/
theorem C51_fast_modpow (x p : Int) (t : Nat) (hp : 1 < p) :
    fastModpow x (t : Int) p = (x ^ t).tmod p ∧ (0 ≤ x → fastModpow x (t : Int) p = x ^ t % p) := by
  have h1 : fastModpow x (t : Int) p = (x ^ t).tmod p := by
    unfold fastModpow
    rw [fastModpowLoop_eq _ _ _ _ _ (Nat.le_refl _) (by omega) 1
      (by rw [Int.tmod_eq_of_lt (by norm_num) hp]), one_mul, Int.toNat_natCast]
  refine ⟨h1, fun hx => ?_⟩
  rw [h1, Int.tmod_eq_emod_of_nonneg (pow_nonneg hx t)]

theorem fastModpowLoop_neg (fuel : Nat) (x t p res : Int) :
    fastModpowLoop fuel x t (-p) res = fastModpowLoop fuel x t p res := by
  induction fuel generalizing x t res with
  | zero => rfl
  | succ fuel ih =>
    unfold fastModpowLoop
    simp only [Int.tmod_neg, ih]

theorem fastModpowLoop_one (fuel : Nat) (x t : Int) : fastModpowLoop fuel x t 1 0 = 0 := by
  induction fuel generalizing x t with
  | zero => rfl
  | succ fuel ih =>
    unfold fastModpowLoop
    split
    · simp only [Int.zero_mul, Int.zero_tmod, ite_self, ih]
    · rfl

/-- The arguments outside the main statement: an exponent that is not positive gives 1, which is not
reduced even modulo 1; a negative modulus acts as its absolute value; modulo 1 every positive power
is 0. -/
theorem C51_edge (x p t : Int) :
    (t ≤ 0 → fastModpow x t p = 1) ∧ fastModpow x t (-p) = fastModpow x t p ∧
    (0 < t → fastModpow x t 1 = 0) := by
  refine ⟨fun h => ?_, fastModpowLoop_neg _ _ _ _ _, fun h => ?_⟩
  · unfold fastModpow
    rw [Int.toNat_of_nonpos h]
    rfl
  · have key : ∀ (fuel : Nat) (x t : Int), 0 < t → t.toNat ≤ fuel → fastModpowLoop fuel x t 1 1 = 0 := by
      intro fuel
      induction fuel with
      | zero => intro x t h1 h2; omega
      | succ fuel ih =>
        intro x t h1 h2
        unfold fastModpowLoop
        rw [if_pos h1]
        simp only [Int.tmod_one]
        split
        · exact fastModpowLoop_one _ _ _
        · have e : t.tdiv 2 = t / 2 := Int.tdiv_eq_ediv_of_nonneg (by omega)
          exact ih _ _ (by omega) (by omega)
    exact key _ _ _ h (Nat.le_refl _)

example : fastModpow 3 (-5) 7 = 1 ∧ fastModpow 3 0 1 = 1 ∧ fastModpow 3 5 (-7) = 5 ∧ fastModpow (-3) 5 7 = -5 := by
  decide +kernel

example : fastModpow 3 200 1000007 = 3 ^ 200 % 1000007 := by decide +kernel

/-! ### C54: the constants -/

/-- The shipped moduli of up to 512 bits are prime. -/
theorem C54_primes :
    (∃ p : Nat, (p : Int) = P_64 ∧ p.Prime) ∧ (∃ p : Nat, (p : Int) = P_128 ∧ p.Prime) ∧
    (∃ p : Nat, (p : Int) = P_256 ∧ p.Prime) ∧ (∃ p : Nat, (p : Int) = P_512 ∧ p.Prime) :=
  ⟨⟨_, rfl, prime_P_64⟩, ⟨_, rfl, prime_P_128⟩, ⟨_, rfl, prime_P_256⟩, ⟨_, rfl, prime_P_512⟩⟩

/-- All shipped moduli are 3 modulo 4. -/
theorem C54_mod_four : ∀ p ∈ [P_64, P_128, P_256, P_512, P_1024, P_2048], p % 4 = 3 := by
  decide +kernel

/-- The BLS12-381 scalar field order is prime, and 5 and 7 do not divide the order of
its multiplicative group. -/
theorem C54_scalar_field :
    Nat.Prime 0x73eda753299d7d483339d80809a1d80553bda402fffe5bfeffffffff00000001 ∧
    Nat.gcd 5 (0x73eda753299d7d483339d80809a1d80553bda402fffe5bfeffffffff00000001 - 1) = 1 ∧
    Nat.gcd 7 (0x73eda753299d7d483339d80809a1d80553bda402fffe5bfeffffffff00000001 - 1) = 1 :=
  ⟨prime_bls_r, by norm_num, by norm_num⟩

end PoS
