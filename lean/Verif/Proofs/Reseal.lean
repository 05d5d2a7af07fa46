import Verif.Proofs.UnsealExact

/-
Unsealing a block of residues and sealing the result again.
-/

set_option linter.unusedSectionVars false

namespace PoS

namespace Sealing

variable {S : Sealing} {dec : Nat → Nat} {deps : List (List Bytes)} {chain : Bytes}

theorem getD_set_ne {α : Type} (l : List α) (i j : Nat) (x d : α) (h : i ≠ j) : (l.set i x).getD j d = l.getD j d := by
  rw [List.getD_eq_getElem?_getD, List.getD_eq_getElem?_getD, List.getElem?_set_ne h]

theorem getD_set_self {α : Type} (l : List α) (i : Nat) (x d : α) (h : i < l.length) : (l.set i x).getD i d = x := by
  rw [List.getD_eq_getElem?_getD, List.getElem?_set_self h]
  rfl

/-- The mask of a unit does not use the unit. -/
theorem maskInput_set {b : List Bytes} {j : Nat} {x : Bytes} (hs : ∀ seed, j ∉ S.short seed j) :
    S.maskInput deps chain (b.set j x) j = S.maskInput deps chain b j := by
  unfold maskInput
  have h1 : (if j = 0 then [] else (b.set j x).getD (j - 1) []) = if j = 0 then [] else b.getD (j - 1) [] := by
    split
    · rfl
    · exact getD_set_ne _ _ _ _ _ (by omega)
  rw [h1]
  congr 3
  apply List.map_congr_left
  intro i hi
  exact getD_set_ne _ _ _ _ _ (fun h => by subst h; exact hs _ hi)

theorem set_getD_self {α : Type} (l : List α) (i : Nat) (d : α) : l.set i (l.getD i d) = l := by
  by_cases h : i < l.length
  · rw [List.getD_eq_getElem?_getD, List.getElem?_eq_getElem h]
    exact List.set_getElem_self h
  · rw [List.set_eq_of_length_le (by omega)]

/-- What is needed of encoder, decoder and short dependencies. -/
structure Inverse (S : Sealing) (dec : Nat → Nat) : Prop where
  p_pos : 0 < S.p
  fits : S.p ≤ 256 ^ S.unitPl
  hash : ∀ x, leNat (S.H x) ≤ S.p
  dec_lt : ∀ z, 0 < z → z < S.p → dec z < S.p
  enc_dec : ∀ z, 0 < z → z < S.p → S.enc (dec z) = z
  enc_lt : ∀ x, 0 < x → x < S.p → S.enc x < S.p
  dec_enc : ∀ x, 0 < x → x < S.p → dec (S.enc x) = x
  other : ∀ j < S.c, ∀ seed, j ∉ S.short seed j

theorem canonical_unstep (inv : Inverse S dec) {b : List Bytes} (hb : S.Canonical b) (j : Nat) :
    S.Canonical (S.unstepUnit dec deps chain b j) := by
  obtain ⟨h1, h2⟩ := hb
  unfold unstepUnit
  refine ⟨by simpa using h1, fun u hu => ?_⟩
  rcases List.mem_or_eq_of_mem_set hu with h | h
  · exact h2 u h
  · have hlt : (dec (leNat (b.getD j [])) + S.p - leNat (S.H (S.maskInput deps chain b j))) % S.p < S.p :=
      Nat.mod_lt _ inv.p_pos
    rw [h, leBytes_length, leNat_leBytes (lt_of_lt_of_le hlt inv.fits)]
    exact ⟨rfl, hlt⟩

/-- Sealing a unit again after it was unsealed. -/
theorem step_unstep (inv : Inverse S dec) {b : List Bytes} (hb : S.Canonical b) {j : Nat} (hj : j < S.c)
    (hz : leNat (b.getD j []) ≠ 0) : S.stepUnit deps chain (S.unstepUnit dec deps chain b j) j = b := by
  obtain ⟨h1, h2⟩ := hb
  have hmem : b.getD j [] ∈ b := by
    rw [List.getD_eq_getElem?_getD, List.getElem?_eq_getElem (by omega)]
    exact List.getElem_mem _
  obtain ⟨g1, g2⟩ := h2 _ hmem
  unfold stepUnit unstepUnit
  rw [maskInput_set (inv.other j hj), getD_set_self _ _ _ _ (by omega), List.set_set]
  have hm := inv.hash (S.maskInput deps chain b j)
  generalize leNat (S.H (S.maskInput deps chain b j)) = m at hm
  have hd := inv.dec_lt _ (Nat.pos_of_ne_zero hz) g2
  have he := inv.enc_dec _ (Nat.pos_of_ne_zero hz) g2
  have hlt : (dec (leNat (b.getD j [])) + S.p - m) % S.p < S.p := Nat.mod_lt _ inv.p_pos
  rw [leNat_leBytes (lt_of_lt_of_le hlt inv.fits), Nat.mod_add_mod,
    show dec (leNat (b.getD j [])) + S.p - m + m = dec (leNat (b.getD j [])) + S.p by omega, Nat.add_mod_right,
    Nat.mod_eq_of_lt hd, he, ← eq_leBytes g1 rfl]
  exact set_getD_self b j []

theorem canonical_foldl (inv : Inverse S dec) (l : List Nat) {b : List Bytes} (hb : S.Canonical b) :
    S.Canonical (l.foldl (S.unstepUnit dec deps chain) b) := by
  induction l generalizing b with
  | nil => exact hb
  | cons j l ih => exact ih (canonical_unstep inv hb j)

theorem foldl_step_unstep (inv : Inverse S dec) (l : List Nat) (hl : ∀ j ∈ l, j < S.c) {b : List Bytes} (hb : S.Canonical b)
    (hz : ∀ i (hi : i < l.length), leNat (((l.take i).foldl (S.unstepUnit dec deps chain) b).getD l[i] []) ≠ 0) :
    l.reverse.foldl (S.stepUnit deps chain) (l.foldl (S.unstepUnit dec deps chain) b) = b := by
  induction l generalizing b with
  | nil => rfl
  | cons j l ih =>
    rw [List.reverse_cons, List.foldl_append]
    simp only [List.foldl_cons, List.foldl_nil]
    rw [ih (fun i hi => hl i (List.mem_cons_of_mem _ hi))
      (canonical_unstep inv hb j) (fun i hi => by
        have := hz (i + 1) (by simpa using hi)
        simpa using this)]
    exact step_unstep inv hb (hl j List.mem_cons_self) (hz 0 (by simp))

theorem round_unround (inv : Inverse S dec) {b : List Bytes} (hb : S.Canonical b)
    (hz : ∀ i < S.c, leNat ((((List.range S.c).reverse.take i).foldl (S.unstepUnit dec deps chain) b).getD (S.c - 1 - i) []) ≠ 0) :
    (List.range S.c).foldl (S.stepUnit deps chain) ((List.range S.c).reverse.foldl (S.unstepUnit dec deps chain) b) = b := by
  have := foldl_step_unstep (deps := deps) (chain := chain) inv (List.range S.c).reverse (fun j hj => by simpa using hj) hb (fun i hi => by
    have h := hz i (by simpa using hi)
    have e : (List.range S.c).reverse[i] = S.c - 1 - i := by simp
    rw [e]; exact h)
  rw [List.reverse_reverse] at this
  exact this

theorem canonical_unseal (inv : Inverse S dec) {b : List Bytes} (hb : S.Canonical b) (r : Nat) :
    S.Canonical ((fun b => (List.range S.c).reverse.foldl (S.unstepUnit dec deps chain) b)^[r] b) := by
  induction r with
  | zero => exact hb
  | succ r ih =>
    rw [Function.iterate_succ_apply']
    exact canonical_foldl inv _ ih

/-- Unsealing a block of residues and sealing it again gives it back, if no unit was zero when it
was decoded. -/
theorem sealOne_unsealOne (inv : Inverse S dec) {b : List Bytes} (hb : S.Canonical b)
    (hz : S.NoZeroDecoded dec deps chain b) :
    S.sealOne deps chain (S.unsealOne dec deps chain b) = b := by
  unfold sealOne unsealOne
  unfold NoZeroDecoded unsealState at hz
  generalize S.rounds = n at hz
  induction n with
  | zero => rfl
  | succ n ih =>
    rw [Function.iterate_succ_apply, Function.iterate_succ_apply']
    rw [round_unround inv (canonical_unseal inv hb n) (hz n (by omega))]
    exact ih (fun r hr => hz r (by omega))

/-! ### Sealing first -/

theorem canonical_step (inv : Inverse S dec) {b : List Bytes} (hb : S.Canonical b) {j : Nat}
    (hz : (leNat (b.getD j []) + leNat (S.H (S.maskInput deps chain b j))) % S.p ≠ 0) :
    S.Canonical (S.stepUnit deps chain b j) := by
  obtain ⟨h1, h2⟩ := hb
  unfold stepUnit
  refine ⟨by simpa using h1, fun u hu => ?_⟩
  rcases List.mem_or_eq_of_mem_set hu with h | h
  · exact h2 u h
  · have hlt := inv.enc_lt _ (Nat.pos_of_ne_zero hz) (Nat.mod_lt _ inv.p_pos)
    rw [h, leBytes_length, leNat_leBytes (lt_of_lt_of_le hlt inv.fits)]
    exact ⟨rfl, hlt⟩

/-- Unsealing a unit after it was sealed. -/
theorem unstep_step (inv : Inverse S dec) {b : List Bytes} (hb : S.Canonical b) {j : Nat} (hj : j < S.c)
    (hz : (leNat (b.getD j []) + leNat (S.H (S.maskInput deps chain b j))) % S.p ≠ 0) :
    S.unstepUnit dec deps chain (S.stepUnit deps chain b j) j = b := by
  obtain ⟨h1, h2⟩ := hb
  have hmem : b.getD j [] ∈ b := by
    rw [List.getD_eq_getElem?_getD, List.getElem?_eq_getElem (by omega)]
    exact List.getElem_mem _
  obtain ⟨g1, g2⟩ := h2 _ hmem
  unfold stepUnit unstepUnit
  rw [maskInput_set (inv.other j hj), getD_set_self _ _ _ _ (by omega), List.set_set]
  have hm := inv.hash (S.maskInput deps chain b j)
  generalize leNat (S.H (S.maskInput deps chain b j)) = m at hm hz
  have hlt := Nat.mod_lt (leNat (b.getD j []) + m) inv.p_pos
  have he := inv.enc_lt _ (Nat.pos_of_ne_zero hz) hlt
  rw [leNat_leBytes (lt_of_lt_of_le he inv.fits), inv.dec_enc _ (Nat.pos_of_ne_zero hz) hlt]
  have : ((leNat (b.getD j []) + m) % S.p + S.p - m) % S.p = leNat (b.getD j []) := by
    rw [Nat.add_sub_assoc hm, Nat.mod_add_mod, show leNat (b.getD j []) + m + (S.p - m) = leNat (b.getD j []) + S.p by omega,
      Nat.add_mod_right, Nat.mod_eq_of_lt g2]
  rw [this, ← eq_leBytes g1 rfl]
  exact set_getD_self b j []

/-- `i` units of a round. -/
theorem unfold_fold (inv : Inverse S dec) {b : List Bytes} (hb : S.Canonical b) (n : Nat) (hn : n ≤ S.c)
    (hz : ∀ i < n, (leNat (((List.range i).foldl (S.stepUnit deps chain) b).getD i []) +
      leNat (S.H (S.maskInput deps chain ((List.range i).foldl (S.stepUnit deps chain) b) i))) % S.p ≠ 0) :
    S.Canonical ((List.range n).foldl (S.stepUnit deps chain) b) ∧
    (List.range n).reverse.foldl (S.unstepUnit dec deps chain) ((List.range n).foldl (S.stepUnit deps chain) b) = b := by
  induction n with
  | zero => exact ⟨hb, rfl⟩
  | succ n ih =>
    obtain ⟨g1, g2⟩ := ih (by omega) (fun i hi => hz i (by omega))
    rw [List.range_succ, List.foldl_append, List.reverse_append]
    simp only [List.reverse_cons, List.reverse_nil, List.nil_append, List.cons_append, List.foldl_cons, List.foldl_nil]
    refine ⟨canonical_step inv g1 (hz n (by omega)), ?_⟩
    rw [unstep_step inv g1 (by omega) (hz n (by omega))]
    exact g2

/-- No masked unit is zero, round by round and unit by unit. -/
theorem noZeroEncoded_iff {b : List Bytes} : S.NoZeroEncoded deps chain b ↔
    ∀ r < S.rounds, ∀ i < S.c, S.encoderInput deps chain (S.sealState deps chain b r i) i ≠ 0 := by
  unfold NoZeroEncoded encoderInputs
  constructor
  · intro h r hr i hi
    exact h _ (List.mem_flatMap.mpr ⟨r, List.mem_range.mpr hr, List.mem_map.mpr ⟨i, List.mem_range.mpr hi, rfl⟩⟩)
  · intro h v hv
    obtain ⟨r, hr, hv⟩ := List.mem_flatMap.mp hv
    obtain ⟨i, hi, rfl⟩ := List.mem_map.mp hv
    exact h r (List.mem_range.mp hr) i (List.mem_range.mp hi)

/-- Sealing a block of residues and unsealing it again gives it back, if no masked unit was zero
when it was encoded. -/
theorem unsealOne_sealOne (inv : Inverse S dec) {b : List Bytes} (hb : S.Canonical b)
    (hz : S.NoZeroEncoded deps chain b) :
    S.Canonical (S.sealOne deps chain b) ∧ S.unsealOne dec deps chain (S.sealOne deps chain b) = b := by
  unfold sealOne unsealOne
  have hz : ∀ r < S.rounds, ∀ i < S.c, (leNat ((S.sealState deps chain b r i).getD i []) +
      leNat (S.H (S.maskInput deps chain (S.sealState deps chain b r i) i))) % S.p ≠ 0 := by
    exact noZeroEncoded_iff.mp hz
  unfold sealState at hz
  generalize S.rounds = n at hz
  induction n with
  | zero => exact ⟨hb, rfl⟩
  | succ n ih =>
    obtain ⟨g1, g2⟩ := ih (fun r hr => hz r (by omega))
    rw [Function.iterate_succ_apply', Function.iterate_succ_apply]
    obtain ⟨e1, e2⟩ := unfold_fold inv g1 S.c (Nat.le_refl _) (hz n (by omega))
    refine ⟨e1, ?_⟩
    rw [e2]
    exact g2

end Sealing

end PoS
