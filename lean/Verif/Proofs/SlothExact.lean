import Verif.Proofs.Vde
import Verif.Spec.Sloth

/-
The encoder of the code is the encoding of `Spec/Sloth.lean`.
-/

set_option linter.unusedSectionVars false

namespace PoS

variable {p : Nat} (hp : p.Prime) (h34 : p % 4 = 3)

include hp h34 in
theorem singleSlothInv_unstep {z : Nat} (hz0 : 0 < z) (hzp : z < p) :
    Rug.singleSlothInv (z : Int) (p : Int) = (unstep p z : Nat) := by
  have : Fact p.Prime := ⟨hp⟩
  unfold unstep
  by_cases hodd : z % 2 = 1
  · rw [if_pos hodd]
    have := rug_singleSlothInv_odd (p := p) (z + 1) (by omega) (by omega) (by omega)
    rwa [Nat.add_sub_cancel] at this
  · rw [if_neg hodd]
    have := rug_singleSlothInv_even h34 (z - 1) (by omega) (by omega)
    rwa [Nat.sub_add_cancel (by omega)] at this

include hp h34 in
theorem unstep_pos_lt {z : Nat} (hz0 : 0 < z) (hzp : z < p) : 0 < unstep p z ∧ unstep p z < p := by
  have : Fact p.Prime := ⟨hp⟩
  obtain ⟨x, h1, h2, h3, -⟩ := rug_step_round' h34 z hz0 hzp
  rw [singleSlothInv_unstep hp h34 hz0 hzp] at h1
  have : unstep p z = x := by exact_mod_cast h1
  omega

include hp h34 in
theorem unstep_inj {z w : Nat} (hz0 : 0 < z) (hzp : z < p) (hw0 : 0 < w) (hwp : w < p)
    (h : unstep p z = unstep p w) : z = w := by
  have : Fact p.Prime := ⟨hp⟩
  obtain ⟨x, h1, -, -, h4⟩ := rug_step_round' h34 z hz0 hzp
  obtain ⟨y, g1, -, -, g4⟩ := rug_step_round' h34 w hw0 hwp
  rw [singleSlothInv_unstep hp h34 hz0 hzp, h] at h1
  rw [singleSlothInv_unstep hp h34 hw0 hwp] at g1
  have : (x : Int) = y := h1.symm.trans g1
  rw [this, g4] at h4
  exact_mod_cast h4.symm

include hp h34 in
theorem slothStep_unique {x z : Nat} (hz0 : 0 < z) (hzp : z < p) (h : unstep p z = x) : slothStep p x = z := by
  unfold slothStep
  cases hf : (List.range p).find? (fun z => decide (0 < z ∧ unstep p z = x)) with
  | none =>
    rw [List.find?_eq_none] at hf
    have := hf z (List.mem_range.mpr hzp)
    simp [hz0, h] at this
  | some w =>
    have h1 := List.find?_some hf
    have h2 := List.mem_of_find?_eq_some hf
    simp only [decide_eq_true_eq] at h1
    rw [List.mem_range] at h2
    exact unstep_inj hp h34 h1.1 h2 hz0 hzp (h1.2.trans h.symm)

include hp h34 in
theorem singleSloth_step {x : Nat} (hx0 : 0 < x) (hxp : x < p) :
    Rug.singleSloth (x : Int) (p : Int) = (slothStep p x : Nat) ∧ 0 < slothStep p x ∧ slothStep p x < p ∧
      unstep p (slothStep p x) = x := by
  have : Fact p.Prime := ⟨hp⟩
  obtain ⟨z, h1, h2, h3, h4⟩ := rug_step_round h34 x hx0 hxp
  rw [singleSlothInv_unstep hp h34 h2 h3] at h4
  have h5 : unstep p z = x := by exact_mod_cast h4
  rw [slothStep_unique hp h34 h2 h3 h5]
  exact ⟨h1, h2, h3, h5⟩

include hp h34 in
theorem sloth_iterate {x : Nat} (hx0 : 0 < x) (hxp : x < p) (t : Nat) :
    Rug.sloth (x : Int) (p : Int) t = (((slothStep p)^[t] x : Nat) : Int) ∧ 0 < (slothStep p)^[t] x ∧
      (slothStep p)^[t] x < p := by
  induction t with
  | zero => exact ⟨rfl, hx0, hxp⟩
  | succ t ih =>
    obtain ⟨h1, h2, h3⟩ := ih
    obtain ⟨g1, g2, g3, -⟩ := singleSloth_step hp h34 h2 h3
    rw [Function.iterate_succ_apply']
    refine ⟨?_, g2, g3⟩
    show Rug.singleSloth (Rug.sloth (x : Int) (p : Int) t) (p : Int) = _
    rw [h1, g1]

include hp h34 in
theorem slothInv_iterate {z : Nat} (hz0 : 0 < z) (hzp : z < p) (t : Nat) :
    Rug.slothInv (z : Int) (p : Int) t = (((unstep p)^[t] z : Nat) : Int) ∧ 0 < (unstep p)^[t] z ∧
      (unstep p)^[t] z < p := by
  induction t with
  | zero => exact ⟨rfl, hz0, hzp⟩
  | succ t ih =>
    obtain ⟨h1, h2, h3⟩ := ih
    have g := unstep_pos_lt hp h34 h2 h3
    rw [Function.iterate_succ_apply']
    refine ⟨?_, g⟩
    show Rug.singleSlothInv (Rug.slothInv (z : Int) (p : Int) t) (p : Int) = _
    rw [h1, singleSlothInv_unstep hp h34 h2 h3]

include hp h34 in
theorem sloth_encode {x : Nat} (hxp : x < p) (t : Nat) :
    (Rug.sloth (x : Int) (p : Int) t).natAbs = encode p t x := by
  have : Fact p.Prime := ⟨hp⟩
  unfold encode
  by_cases hx : x = 0
  · subst hx
    obtain ⟨a, b, c⟩ := rug_sloth_zero h34 t
    rw [if_pos rfl, Int.natCast_zero]
    by_cases h0 : t = 0
    · rw [if_pos h0, a h0]; rfl
    · rw [if_neg h0]
      by_cases h1 : t = 1
      · rw [if_pos h1, b h1]; rfl
      · rw [if_neg h1, c (by omega)]
        have := (sloth_iterate hp h34 (x := 2) (by omega) (by omega) (t - 2)).1
        rw [show (2 : Int) = ((2 : Nat) : Int) from rfl, this]
        exact Int.natAbs_natCast _
  · rw [if_neg hx, (sloth_iterate hp h34 (by omega) hxp t).1]
    exact Int.natAbs_natCast _

end PoS
