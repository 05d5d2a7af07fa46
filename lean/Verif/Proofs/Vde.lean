import Verif.Model.Vde
import Verif.Proofs.Sloth
import Verif.Proofs.Common

/-
Helper lemmas about `Verif/Model/Vde.lean`: byte-level encoding and decoding.
-/

namespace PoS

/-- `toLE` padded to `l` bytes. -/
theorem pad_spec {n l : Nat} (h : n < 256 ^ l) :
    ∃ y : Bytes, (if (toLE n).length < l then toLE n ++ zeros (l - (toLE n).length) else toLE n) = y ∧
      y.length = l ∧ leNat y = n := by
  have hl := toLE_length h
  refine ⟨_, rfl, ?_, ?_⟩
  · split
    · simp; omega
    · omega
  · split
    · simp
    · simp

section

variable {p : Nat} (hp : p.Prime) (h34 : p % 4 = 3)

include hp h34

/-- Encoding a non-zero unit and decoding the result. -/
theorem rug_vde_spec {x : Bytes} {l t : Nat} {mode : String} (hx0 : 0 < leNat x) (hxp : leNat x < p)
    (hfit : p ≤ 256 ^ l) :
    (Rug.vde x (p : Int) t mode l).length = l ∧ 0 < leNat (Rug.vde x (p : Int) t mode l) ∧
      leNat (Rug.vde x (p : Int) t mode l) < p ∧
      (Rug.vdeInv (Rug.vde x (p : Int) t mode l) (p : Int) t mode l).length = l ∧
      leNat (Rug.vdeInv (Rug.vde x (p : Int) t mode l) (p : Int) t mode l) = leNat x := by
  obtain ⟨z, h1, h2, h3, h4⟩ := rug_sloth_round hp h34 t (leNat x) hx0 hxp
  obtain ⟨y, g1, g2, g3⟩ := pad_spec (n := z) (l := l) (by omega)
  have hv : Rug.vde x (p : Int) t mode l = y := by
    unfold Rug.vde
    simp only [ite_self, h1, Int.natAbs_natCast]
    exact g1
  obtain ⟨w, k1, k2, k3⟩ := pad_spec (n := leNat x) (l := l) (by omega)
  have hw : Rug.vdeInv y (p : Int) t mode l = w := by
    unfold Rug.vdeInv
    simp only [ite_self, g3, h4, Int.natAbs_natCast]
    exact k1
  rw [hv, hw]
  exact ⟨g2, by omega, by omega, k2, k3⟩

/-- Decoding a non-zero unit and encoding the result. -/
theorem rug_vde_spec' {y : Bytes} {l t : Nat} {mode : String} (hy0 : 0 < leNat y) (hyp : leNat y < p)
    (hfit : p ≤ 256 ^ l) :
    (Rug.vdeInv y (p : Int) t mode l).length = l ∧ 0 < leNat (Rug.vdeInv y (p : Int) t mode l) ∧
      leNat (Rug.vdeInv y (p : Int) t mode l) < p ∧
      (Rug.vde (Rug.vdeInv y (p : Int) t mode l) (p : Int) t mode l).length = l ∧
      leNat (Rug.vde (Rug.vdeInv y (p : Int) t mode l) (p : Int) t mode l) = leNat y := by
  obtain ⟨z, h1, h2, h3, h4⟩ := rug_sloth_round' hp h34 t (leNat y) hy0 hyp
  obtain ⟨x, g1, g2, g3⟩ := pad_spec (n := z) (l := l) (by omega)
  have hv : Rug.vdeInv y (p : Int) t mode l = x := by
    unfold Rug.vdeInv
    simp only [ite_self, h1, Int.natAbs_natCast]
    exact g1
  obtain ⟨w, k1, k2, k3⟩ := pad_spec (n := leNat y) (l := l) (by omega)
  have hw : Rug.vde x (p : Int) t mode l = w := by
    unfold Rug.vde
    simp only [ite_self, g3, h4, Int.natAbs_natCast]
    exact k1
  rw [hv, hw]
  exact ⟨g2, by omega, by omega, k2, k3⟩

/-! ### The residue zero -/

omit hp in
theorem rug_singleSloth_zero : Rug.singleSloth 0 (p : Int) = -1 := by
  have hpow : powMod 0 (((p : Int) + 1).tdiv 4) (p : Int) = 0 := by
    have e1 : ((p : Int) + 1).tdiv 4 = (((p + 1) / 4 : Nat) : Int) := tdiv_natCast (p + 1) 4
    have := powMod_natCast 0 ((p + 1) / 4) p
    rw [e1, show (0 : Int) = ((0 : Nat) : Int) from rfl, this, Nat.zero_pow (by omega)]
    simp
  have h0 : Rug.legendre 0 (p : Int) = 0 := by
    unfold Rug.legendre Rug.legendreAux; simp
  have hm1 : (-1 : Int).tmod (p : Int) = -1 := by
    rw [Int.neg_tmod, show (1 : Int) = ((1 : Nat) : Int) from rfl, tmod_natCast,
      Nat.mod_eq_of_lt (by omega)]
  unfold Rug.singleSloth
  have hz : Int.tmod 0 2 = 0 := rfl
  have ho : Int.tmod 0 2 = 1 ↔ False := by decide
  simp [h0, hpow, hm1]

omit hp in
theorem rug_singleSloth_neg_one (h3 : 3 ≤ p) : Rug.singleSloth (-1) (p : Int) = 2 := by
  have h0 : Rug.legendre (-1) (p : Int) = 0 := by
    have hs : stripTwos 1 (-1) 0 = (-1, 0) := by rfl
    unfold Rug.legendre Rug.legendreAux
    simp only [Int.natAbs_neg, Int.natAbs_one, hs]
    have hz : Rug.legendreAux 1 0 (-1) = 0 := by unfold Rug.legendreAux; simp
    norm_num
    simp [hz]
  have hxx : ((p : Int) - (-1)).tmod (p : Int) = 1 := by
    have : (p : Int) - (-1) = ((p + 1 : Nat) : Int) := by push_cast; ring
    rw [this, tmod_natCast, Nat.add_mod_left, Nat.mod_eq_of_lt (by omega)]; rfl
  have hpow : powMod 1 (((p : Int) + 1).tdiv 4) (p : Int) = 1 := by
    have e1 : ((p : Int) + 1).tdiv 4 = (((p + 1) / 4 : Nat) : Int) := tdiv_natCast (p + 1) 4
    have := powMod_natCast 1 ((p + 1) / 4) p
    rw [e1, show (1 : Int) = ((1 : Nat) : Int) from rfl, this, one_pow, Nat.mod_eq_of_lt (by omega)]
  have h2 : (2 : Int).tmod (p : Int) = 2 := by
    rw [show (2 : Int) = ((2 : Nat) : Int) from rfl, tmod_natCast, Nat.mod_eq_of_lt (by omega)]
  unfold Rug.singleSloth
  have e1 : Int.tmod 1 2 = 1 := rfl
  simp only [h0, hxx, hpow, e1]
  norm_num
  exact h2

omit hp in
/-- Where the residue zero goes. -/
theorem rug_sloth_zero (t : Nat) :
    (t = 0 → Rug.sloth 0 (p : Int) t = 0) ∧ (t = 1 → Rug.sloth 0 (p : Int) t = -1) ∧
    (2 ≤ t → Rug.sloth 0 (p : Int) t = Rug.sloth 2 (p : Int) (t - 2)) := by
  have h3 : 3 ≤ p := by omega
  refine ⟨by rintro rfl; rfl, ?_, ?_⟩
  · rintro rfl
    exact rug_singleSloth_zero h34
  · intro h2
    obtain ⟨k, rfl⟩ : ∃ k, t = k + 2 := ⟨t - 2, by omega⟩
    rw [rug_sloth_succ', rug_sloth_succ', rug_singleSloth_zero h34, rug_singleSloth_neg_one h34 h3]
    rfl

/-- The encoder output has absolute value below the modulus on every residue. -/
theorem rug_sloth_natAbs_lt (t x : Nat) (hxp : x < p) : (Rug.sloth (x : Int) (p : Int) t).natAbs < p := by
  have h3 : 3 ≤ p := by omega
  rcases Nat.eq_zero_or_pos x with h | h
  · subst h
    obtain ⟨a, b, c⟩ := rug_sloth_zero h34 t
    rcases (show t = 0 ∨ t = 1 ∨ 2 ≤ t by omega) with h | h | h
    · rw [Int.natCast_zero, a h]; simp; omega
    · rw [Int.natCast_zero, b h]; simp; omega
    · rw [Int.natCast_zero, c h]
      obtain ⟨z, h1, -, h3, -⟩ := rug_sloth_round hp h34 (t - 2) 2 (by omega) (by omega)
      have : Rug.sloth 2 (p : Int) (t - 2) = (z : Int) := h1
      rw [this]; simpa using h3
  · obtain ⟨z, h1, -, h3, -⟩ := rug_sloth_round hp h34 t x h hxp
    rw [h1]; simpa using h3

theorem rug_vde_length {x : Bytes} {l t : Nat} {mode : String} (hxp : leNat x < p)
    (hfit : p ≤ 256 ^ l) :
    (Rug.vde x (p : Int) t mode l).length = l ∧ leNat (Rug.vde x (p : Int) t mode l) < p := by
  have h := rug_sloth_natAbs_lt hp h34 t (leNat x) hxp
  obtain ⟨y, g1, g2, g3⟩ := pad_spec (n := (Rug.sloth (leNat x : Int) (p : Int) t).natAbs) (l := l)
    (by omega)
  have hv : Rug.vde x (p : Int) t mode l = y := by
    unfold Rug.vde
    simp only [ite_self]
    exact g1
  rw [hv]
  exact ⟨g2, by omega⟩

/-- What the round trip makes of the residue zero. -/
theorem rug_zero_round (t : Nat) (h7 : 3 < p) :
    (t = 1 → Rug.slothInv (Rug.sloth 0 (p : Int) t) (p : Int) t = 4) ∧
    (2 ≤ t → Rug.slothInv (Rug.sloth 0 (p : Int) t) (p : Int) t = (p : Int) - 4) := by
  have h3 : 7 ≤ p := by omega
  obtain ⟨-, b, c⟩ := rug_sloth_zero h34 t
  constructor
  · intro h
    rw [b h, h]
    show Rug.singleSlothInv (-1) (p : Int) = 4
    have hx : ((-1 : Int) - 1).tmod (p : Int) = -2 := by
      rw [show (-1 : Int) - 1 = -((2 : Nat) : Int) from rfl, Int.neg_tmod, tmod_natCast,
        Nat.mod_eq_of_lt (by omega)]
      rfl
    have hpw : powMod (-2) 2 (p : Int) = 4 := by
      unfold powMod
      rw [powModNat_eq]
      have : ((-2 : Int) % (p : Int)).toNat = p - 2 := by
        rw [← Int.add_emod_right, Int.emod_eq_of_lt (by omega) (by omega)]
        omega
      rw [this]
      have h4 : (p - 2) ^ (2 : Int).toNat % (p : Int).toNat = 4 := by
        show (p - 2) ^ 2 % p = 4
        have : (p - 2) ^ 2 = 4 + p * (p - 4) := by
          obtain ⟨k, rfl⟩ : ∃ k, p = k + 4 := ⟨p - 4, by omega⟩
          rw [show k + 4 - 2 = k + 2 from rfl, Nat.add_sub_cancel]
          ring
        rw [this, Nat.add_mul_mod_self_left, Nat.mod_eq_of_lt (by omega)]
      rw [h4]; rfl
    unfold Rug.singleSlothInv
    have e1 : Int.tmod (-1) 2 = -1 := rfl
    have e2 : Int.tmod (-2) 2 = 0 := rfl
    simp only [e1, hx]
    norm_num
    exact hpw
  · intro h
    rw [c h]
    obtain ⟨z, h1, h2, h3', h4⟩ := rug_sloth_round hp h34 (t - 2) 2 (by omega) (by omega)
    have h1' : Rug.sloth 2 (p : Int) (t - 2) = (z : Int) := h1
    rw [h1']
    obtain ⟨k, rfl⟩ : ∃ k, t = k + 2 := ⟨t - 2, by omega⟩
    rw [Nat.add_sub_cancel] at h4
    show Rug.singleSlothInv (Rug.singleSlothInv (Rug.slothInv z p k) p) p = _
    rw [h4]
    have s1 := rug_singleSlothInv_even h34 1 (by omega) (by omega)
    rw [one_pow, Nat.mod_eq_of_lt (by omega)] at s1
    have s1' : Rug.singleSlothInv ((2 : Nat) : Int) (p : Int) = ((p - 1 : Nat) : Int) := s1
    rw [s1']
    have s2 := rug_singleSlothInv_even h34 (p - 2) (by omega) (by omega)
    rw [show p - 2 + 1 = p - 1 by omega] at s2
    rw [s2]
    have : (p - 2) ^ 2 = 4 + p * (p - 4) := by
      obtain ⟨k, rfl⟩ : ∃ k, p = k + 4 := ⟨p - 4, by omega⟩
      rw [show k + 4 - 2 = k + 2 from rfl, Nat.add_sub_cancel]
      ring
    rw [this, Nat.add_mul_mod_self_left, Nat.mod_eq_of_lt (by omega)]
    omega

end

/-! ### The `num_bigint` version -/

theorem toBytesLe_nat (z l : Nat) (h : z < 256 ^ l) (hz : 0 < z) :
    ∃ y : Bytes, (if (Num.toBytesLe (z : Int)).length < l then Num.toBytesLe (z : Int) ++
        zeros (l - (Num.toBytesLe (z : Int)).length) else Num.toBytesLe (z : Int)) = y ∧
      y.length = l ∧ leNat y = z := by
  have e : Num.toBytesLe (z : Int) = toLE z := by
    unfold Num.toBytesLe
    rw [if_neg (by omega), Int.natAbs_natCast]
  rw [e]
  exact pad_spec h

theorem num_vde_units {p : Nat} (hp : p.Prime) (h34 : p % 4 = 3) {l t : Nat} {mode : String}
    (hfit : p ≤ 256 ^ l) (us : List Bytes)
    (hus : ∀ u ∈ us, u.length = l ∧ 0 < leNat u ∧ leNat u < p) (acc : Bytes) :
    ∃ vs : List Bytes, (∀ v ∈ vs, v.length = l) ∧ vs.length = us.length ∧
      forEach us (fun buf res =>
        let y := Num.singleVde (leNat buf : Int) p t mode
        let yBytes := Num.toBytesLe y
        let yBytes := if yBytes.length < l then yBytes ++ zeros (l - yBytes.length) else yBytes
        pure (res ++ yBytes)) acc = .ok (acc ++ vs.flatten) ∧
      ∀ acc', forEach vs (fun buf res =>
        let x := Num.singleVdeInv (leNat buf : Int) p t mode
        let xBytes := Num.toBytesLe x
        let xBytes := if xBytes.length < l then xBytes ++ zeros (l - xBytes.length) else xBytes
        pure (res ++ xBytes)) acc' = .ok (acc' ++ us.flatten) := by
  induction us generalizing acc with
  | nil => exact ⟨[], by simp, rfl, by simp, fun acc' => by simp⟩
  | cons u us ih =>
    obtain ⟨hul, hu0, hup⟩ := hus u (by simp)
    obtain ⟨z, h1, h2, h3, h4⟩ := rug_sloth_round hp h34 t (leNat u) hu0 hup
    have h1' : Num.singleVde (leNat u : Int) (p : Int) t mode = (z : Int) := by
      unfold Num.singleVde
      rw [ite_self, num_sloth_eq, h1]
    obtain ⟨y, g1, g2, g3⟩ := toBytesLe_nat z l (by omega) h2
    have h4' : Num.singleVdeInv (leNat y : Int) (p : Int) t mode = (leNat u : Int) := by
      unfold Num.singleVdeInv
      rw [ite_self, g3, num_slothInv_eq hp h34 t z h2 h3, h4]
    obtain ⟨w, k1, k2, k3⟩ := toBytesLe_nat (leNat u) l (by omega) hu0
    have hwu : w = u := leNat_inj (by omega) k3
    obtain ⟨vs, i1, i2, i3, i4⟩ := ih (fun v hv => hus v (by simp [hv])) (acc ++ y)
    refine ⟨y :: vs, ?_, by simp [i2], ?_, ?_⟩
    · intro v hv
      rcases List.mem_cons.mp hv with h | h
      · rw [h]; exact g2
      · exact i1 v h
    · rw [forEach_cons]
      simp only [h1', g1, pure_eq_ok, bind_ok]
      simp only [pure_eq_ok] at i3
      rw [i3]
      simp
    · intro acc'
      rw [forEach_cons]
      simp only [h4', k1, pure_eq_ok, bind_ok, hwu]
      have := i4 (acc' ++ u)
      simp only [pure_eq_ok] at this
      rw [this]
      simp

end PoS
