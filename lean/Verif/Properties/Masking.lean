import Verif.Proofs.Common
import Verif.Proofs.SealExact

/-
C13, the exact result of the masking arithmetic on every input.
-/

namespace PoS

private theorem padded_digits (len v : Nat) :
    (do let k ← sub! len (toLE v).length
        pure (toLE v ++ zeros k) : R Bytes)
      = if v < 256 ^ len then .ok (leBytes len v) else .error .overflow := by
  by_cases h : v < 256 ^ len
  · rw [if_pos h, sub!_of_le (toLE_length h)]
    have hl := toLE_length h
    show Except.ok _ = _
    congr 1
    apply eq_leBytes
    · simp; omega
    · simp
  · rw [if_neg h]
    have hl := toLE_length_gt (Nat.le_of_not_lt h)
    unfold sub!
    rw [if_neg (by omega)]
    rfl

/-- `modadd` on every unit, every mask and every modulus: it panics for modulus zero, it panics
when the remainder does not fit into as many bytes as the unit has, and otherwise it returns the
remainder in exactly that many bytes.  The sign of the modulus has no effect. -/
theorem C13_modadd_exact (u h : Bytes) (p : Int) :
    modadd u h p =
      if p = 0 then .error .zero
      else if (leNat u + leNat h) % p.natAbs < 256 ^ u.length
        then .ok (leBytes u.length ((leNat u + leNat h) % p.natAbs))
        else .error .overflow := by
  unfold modadd
  by_cases hp : p = 0
  · rw [if_pos hp, if_pos hp]
  · rw [if_neg hp, if_neg hp]
    have e : (((leNat u : Int) + (leNat h : Int)).tmod p).natAbs = (leNat u + leNat h) % p.natAbs := by
      rw [Int.natAbs_tmod, ← Int.natCast_add, Int.natAbs_natCast]
    simp only [e]
    exact padded_digits _ _

/-- `modsub` on every unit, every mask and every positive modulus: the remainder of
`unit + modulus - mask`, but once the mask exceeds the unit by more than the modulus the
difference is negative and its sign is lost: the remainder of `mask - modulus - unit` is returned
instead. -/
theorem C13_modsub_exact (u h : Bytes) (p : Nat) :
    modsub u h (p : Int) =
      if p = 0 then .error .zero
      else
        let v := if leNat h ≤ leNat u + p then (leNat u + p - leNat h) % p
          else (leNat h - p - leNat u) % p
        if v < 256 ^ u.length then .ok (leBytes u.length v) else .error .overflow := by
  unfold modsub
  by_cases hp : p = 0
  · subst hp; rfl
  · rw [if_neg (by omega), if_neg hp]
    have e : (((leNat u : Int) + (p : Int) - (leNat h : Int)).tmod (p : Int)).natAbs
        = if leNat h ≤ leNat u + p then (leNat u + p - leNat h) % p
          else (leNat h - p - leNat u) % p := by
      rw [Int.natAbs_tmod, Int.natAbs_natCast]
      split
      · rw [show ((leNat u : Int) + (p : Int) - (leNat h : Int)).natAbs = leNat u + p - leNat h by omega]
      · rw [show ((leNat u : Int) + (p : Int) - (leNat h : Int)).natAbs = leNat h - p - leNat u by omega]
    simp only [e]
    exact padded_digits _ _

/-- What `modsub` makes of a masked unit for a mask of any size: the unit comes back exactly when
the mask is at most the masked unit plus the modulus, or twice the unit is divisible by the
modulus. -/
theorem C13_unmask_iff (u h : Bytes) (p : Nat) (hp : 0 < p) (hfit : p ≤ 256 ^ u.length) (hu : leNat u < p) :
    ∃ r, modadd u h (p : Int) = .ok r ∧
      (modsub r h (p : Int) = .ok u ↔ leNat h ≤ (leNat u + leNat h) % p + p ∨ p ∣ 2 * leNat u) := by
  obtain ⟨r, h1, h2, h3⟩ := modadd_spec (u := u) (h := h) hp hfit
  refine ⟨r, h1, ?_⟩
  rw [C13_modsub_exact, if_neg (by omega), h3, h2]
  simp only
  generalize hm : (leNat u + leNat h) % p = m
  have hmp : m < p := by rw [← hm]; exact Nat.mod_lt _ hp
  have hdiv := Nat.div_add_mod (leNat u + leNat h) p
  rw [hm] at hdiv
  generalize (leNat u + leNat h) / p = k at hdiv
  have key : ∀ v, v < p → ((if v < 256 ^ u.length then Except.ok (leBytes u.length v) else .error .overflow : R Bytes)
      = .ok u ↔ v = leNat u) := by
    intro v hv
    rw [if_pos (lt_of_lt_of_le hv hfit)]
    constructor
    · intro e
      injection e with e
      rw [← e, leNat_leBytes (lt_of_lt_of_le hv hfit)]
    · intro e
      rw [e, ← eq_leBytes (b := u) rfl rfl]
  by_cases hh : leNat h ≤ m + p
  · rw [if_pos hh, key _ (Nat.mod_lt _ hp)]
    refine ⟨fun _ => Or.inl hh, fun _ => ?_⟩
    have e : (m + p - leNat h) + p * k = leNat u + p * 1 := by omega
    have := congrArg (· % p) e
    simpa [Nat.add_mul_mod_self_left, Nat.mod_eq_of_lt hu] using this
  · rw [if_neg hh, key _ (Nat.mod_lt _ hp)]
    have e : (leNat h - p - m) + leNat u + p = p * k := by omega
    constructor
    · intro e2
      right
      have hd : p ∣ (leNat h - p - m) + leNat u := by
        have : p ∣ (leNat h - p - m) + leNat u + p := ⟨k, e⟩
        exact (Nat.dvd_add_left (dvd_refl p)).1 this
      have hmod := Nat.div_add_mod (leNat h - p - m) p
      rw [e2] at hmod
      rw [← hmod, Nat.add_assoc, ← Nat.two_mul] at hd
      exact (Nat.dvd_add_right ⟨_, rfl⟩).1 hd
    · rintro (h' | hd)
      · exact absurd h' hh
      · obtain ⟨c, hc⟩ := hd
        have e3 : (leNat h - p - m) + p * (c + 1) = leNat u + p * k := by
          rw [Nat.mul_add]; omega
        have := congrArg (· % p) e3
        simpa [Nat.add_mul_mod_self_left, Nat.mod_eq_of_lt hu] using this

/-- A mask of the size of a few moduli: unit 3, modulus 11, mask 40; masking gives 10, unmasking
gives 8. -/
example : modadd [3] [40] 11 = .ok [10] ∧ modsub [10] [40] 11 = .ok [8] ∧ modadd [3] [40] 0 = .error .zero ∧
    modadd [3] [40] (-11) = .ok [10] ∧ modadd [200] [100] 509 = .error .overflow := by decide

example : (0 : Nat) < 11 ∧ 11 ≤ 256 ^ ([3] : Bytes).length ∧ leNat [3] < 11 ∧
    ¬ (leNat [40] ≤ (leNat [3] + leNat [40]) % 11 + 11 ∨ 11 ∣ 2 * leNat [3]) := by decide

end PoS
