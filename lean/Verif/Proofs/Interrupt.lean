import Verif.Model.Interrupt
import Verif.Properties.Unsealing

/-
Lemmas about stopped runs: part of the unsealing loop, torn writes, locality of what is left.
-/

namespace PoS

set_option linter.unusedSectionVars false

theorem tornFile_getElem? {before after : Bytes} (h : before.length = after.length) (u i : Nat) :
    (tornFile before after u)[i]? = if i < u then after[i]? else before[i]? := by
  unfold tornFile
  by_cases hi : i < u
  · rw [if_pos hi]
    by_cases h2 : i < after.length
    · rw [List.getElem?_append_left (by simp; omega), List.getElem?_take_of_lt hi]
    · rw [List.getElem?_eq_none (by simp; omega), List.getElem?_eq_none (by omega)]
  · rw [if_neg hi]
    by_cases h2 : u ≤ after.length
    · rw [List.getElem?_append_right (by simp; omega), List.getElem?_drop]
      congr 1
      simp
      omega
    · rw [List.getElem?_eq_none (by simp; omega), List.getElem?_eq_none (by omega)]

theorem tornFile_length {before after : Bytes} (h : before.length = after.length) (u : Nat) :
    (tornFile before after u).length = before.length := by
  unfold tornFile
  simp
  omega

section
variable {H : Bytes → Bytes} (hH : ∀ x, (H x).length = 32) {params : PosPara} {p n c : Nat}
  (cfg : Config params p n c) (hL : LongModeOk params n) (hS : ShortModeOk params n c) {iv : Bytes}
  {S : Sealing} (hd : describesUnseal S H params p n c iv)

include hd in
theorem describesUnseal_eq (b : Nat → List Bytes) (k : Nat) (dec : Nat → Nat) :
    S.unsealedBlock dec b k =
      (sealingOf H params p c iv (unsealLongOf H params n) (shortOf H params n c)).unsealedBlock dec b k := by
  obtain ⟨g1, g2, g3, g4, g5, g6, g7, g8⟩ := hd
  obtain ⟨_, _, _, _, _, _, _, _, _⟩ := S
  simp only at g1 g2 g3 g4 g5 g6 g7 g8
  subst g1; subst g2; subst g3; subst g4; subst g5; subst g6; subst g7; subst g8
  rfl

include hH cfg hL hS hd in
/-- Blocks `k - 1` down to `k - m` unsealed, the others as they were. -/
theorem unsealRange_exact {file : Bytes} (hlen : n * params.blockPl ≤ file.length) {k m : Nat} (hkn : k ≤ n) (hm : m ≤ k) :
    ∃ tL tS out, idxsLOf params n = .ok tL ∧ idxsSOf params n = .ok tS ∧ forUp m (fun i f => do
        let a ← sub! k 1
        let idx2 ← sub! a i
        unsealBlock H params (p : Int) iv n tL tS idx2 f) file = .ok out ∧
      (∀ j, k - m ≤ j → j < k → blockOf params out j =
        (S.unsealedBlock ((undelay p)^[params.vdeRounds]) (plainUnits params c file) j).flatten) ∧
      out.length = file.length ∧ ∀ x, x < (k - m) * params.blockPl ∨ k * params.blockPl ≤ x → out[x]? = file[x]? := by
  obtain ⟨tL, hl, hlong⟩ := unsealLongOf_is hH cfg.layout hL
  obtain ⟨tS, hs, hshort⟩ := shortOf_is hH cfg.c_pos hS
  have hlay := cfg.layout
  set dec := (undelay p)^[params.vdeRounds] with hdec
  obtain ⟨out, h1, h2, h3, h4⟩ := forUp_total (n := m) (s := file) (f := fun i f => do
        let a ← sub! k 1
        let idx2 ← sub! a i
        unsealBlock H params (p : Int) iv n tL tS idx2 f)
    (fun i f => (∀ j, k - i ≤ j → j < k → blockOf params f j =
        (S.unsealedBlock dec (plainUnits params c file) j).flatten) ∧ f.length = file.length ∧
      (∀ x, x < (k - i) * params.blockPl ∨ k * params.blockPl ≤ x → f[x]? = file[x]?))
    ⟨fun j hj hj' => by omega, rfl, fun _ _ => rfl⟩ (by
      intro i hi f ⟨b1, b2, b3⟩
      set q := k - 1 - i with hq
      have hqn : q < n := by omega
      rw [sub!_of_le (by omega), bind_ok, sub!_of_le (by omega), bind_ok]
      obtain ⟨e1, e2, e3⟩ := unsealBlock_exact hH cfg.keyOk hlay hshort hlong (iv := iv) hqn f
      rw [← describesUnseal_eq hd, ← hdec] at e1 e2 e3
      have hk1 : k - i = q + 1 := by omega
      have hsame : ∀ j ≤ q, plainUnits params c f j = plainUnits params c file j := by
        intro j hj
        refine plainUnits_congr hlay (readFile_congr fun x hx1 hx2 => b3 x (Or.inl ?_))
        have : (j + 1) * params.blockPl ≤ (k - i) * params.blockPl := Nat.mul_le_mul_right _ (by omega)
        rw [Nat.add_mul, Nat.one_mul] at this
        omega
      have hblk : S.unsealedBlock dec (plainUnits params c f) q = S.unsealedBlock dec (plainUnits params c file) q := by
        unfold Sealing.unsealedBlock
        simp only
        rw [hsame q (Nat.le_refl q), hsame (q - 1) (by omega)]
        congr 1
        refine List.map_congr_left fun j hj => hsame j ?_
        rw [hd.2.2.2.2.2.2.1] at hj
        exact ((hlong q hqn _).1 j hj).le
      rw [hblk] at e1 e2 e3
      have hout : (S.unsealedBlock dec (plainUnits params c file) q).flatten.length = params.blockPl := by
        rw [flatten_length_const _ _ e3, e2, hlay.block]
      have hkb : q * params.blockPl + params.blockPl ≤ n * params.blockPl := block_index hqn
      have hkb' : q * params.blockPl + params.blockPl ≤ k * params.blockPl := block_index (by omega)
      have hw : ∀ x, (writeAt f (q * params.blockPl) (S.unsealedBlock dec (plainUnits params c file) q).flatten)[x]? =
          if q * params.blockPl ≤ x ∧ x < q * params.blockPl + params.blockPl then
            (S.unsealedBlock dec (plainUnits params c file) q).flatten[x - q * params.blockPl]? else f[x]? := by
        intro x
        rw [writeAt_getElem? _ _ _ _ (by omega), hout]
      refine ⟨_, e1, ?_, ?_, ?_⟩
      · intro j hj hj'
        rcases Nat.lt_or_ge q j with h | h
        · rw [← b1 j (by omega) hj']
          refine readFile_congr fun x hx1 hx2 => ?_
          have : q * params.blockPl + params.blockPl ≤ j * params.blockPl := block_index h
          rw [hw, if_neg (by omega)]
        · rw [show j = q by omega]
          have := readFile_writeAt_same f (S.unsealedBlock dec (plainUnits params c file) q).flatten
            (q * params.blockPl) (by omega)
          rw [hout] at this
          exact this
      · rw [writeAt_length _ _ _ (by rw [hout]; omega), b2]
      · intro x hx
        have e : (k - (i + 1)) = q := by omega
        rw [e] at hx
        rw [hw, if_neg (by omega)]
        refine b3 x ?_
        have : (q + 1) * params.blockPl = q * params.blockPl + params.blockPl := by rw [Nat.add_mul, Nat.one_mul]
        rw [hk1]; omega)
  exact ⟨tL, tS, out, hl, hs, h1, h2, h3, h4⟩

include hH cfg hL hS hd in
theorem unsealPart_exact {file : Bytes} (hlen : n * params.blockPl ≤ file.length) {m : Nat} (hm : m ≤ n) :
    ∃ out, unsealPart H params file (p : Int) iv m = .ok out ∧
      (∀ j, n - m ≤ j → j < n → blockOf params out j =
        (S.unsealedBlock ((undelay p)^[params.vdeRounds]) (plainUnits params c file) j).flatten) ∧
      out.length = file.length ∧ ∀ x, x < (n - m) * params.blockPl ∨ n * params.blockPl ≤ x → out[x]? = file[x]? := by
  obtain ⟨tL, tS, out, hl, hs, h1, h2⟩ := unsealRange_exact hH cfg hL hS hd hlen (Nat.le_refl n) hm
  refine ⟨out, ?_, h2⟩
  unfold unsealPart
  rw [cfg.div, bind_ok, hl, bind_ok, hs, bind_ok]
  exact h1

include hH cfg hL hS hd in
theorem unsealFrom_exact {file : Bytes} (hlen : n * params.blockPl ≤ file.length) {k : Nat} (hk : k ≤ n) :
    ∃ out, unsealFrom H params file (p : Int) iv k = .ok out ∧
      (∀ j < k, blockOf params out j =
        (S.unsealedBlock ((undelay p)^[params.vdeRounds]) (plainUnits params c file) j).flatten) ∧
      out.length = file.length ∧ ∀ x, k * params.blockPl ≤ x → out[x]? = file[x]? := by
  obtain ⟨tL, tS, out, hl, hs, h1, h2, h3, h4⟩ := unsealRange_exact hH cfg hL hS hd hlen hk (Nat.le_refl k)
  refine ⟨out, ?_, fun j hj => h2 j (by omega) hj, h3, fun x hx => h4 x (Or.inr hx)⟩
  unfold unsealFrom
  rw [cfg.div, bind_ok, hl, bind_ok, hs, bind_ok]
  exact h1

include hH cfg hL hd in
/-- Block `j` of the result only depends on the blocks up to `j`. -/
theorem unsealedBlock_below {f g : Bytes} {dec : Nat → Nat} {j : Nat} (hj : j < n)
    (h : ∀ x, x < (j + 1) * params.blockPl → f[x]? = g[x]?) :
    S.unsealedBlock dec (plainUnits params c f) j = S.unsealedBlock dec (plainUnits params c g) j := by
  obtain ⟨tL, hl, hlong⟩ := unsealLongOf_is hH cfg.layout hL
  have hsame : ∀ i ≤ j, plainUnits params c f i = plainUnits params c g i := by
    intro i hi
    refine plainUnits_congr cfg.layout (readFile_congr fun x hx1 hx2 => h x ?_)
    have : i * params.blockPl + params.blockPl ≤ (j + 1) * params.blockPl := block_index (by omega)
    omega
  unfold Sealing.unsealedBlock
  simp only
  rw [hsame j (Nat.le_refl j), hsame (j - 1) (by omega)]
  congr 1
  refine List.map_congr_left fun i hi => hsame i ?_
  rw [hd.2.2.2.2.2.2.1] at hi
  exact ((hlong j hj _).1 i hi).le

end

/-- Two files of the same length that have the same block `j` have the same bytes there. -/
theorem blockOf_bytes {params : PosPara} {f g : Bytes} (hlen : f.length = g.length) {j : Nat}
    (h : blockOf params f j = blockOf params g j) {x : Nat} (h1 : j * params.blockPl ≤ x)
    (h2 : x < j * params.blockPl + params.blockPl) : f[x]? = g[x]? := by
  have e := congrArg (fun l => l[x - j * params.blockPl]?) h
  simp only [blockOf, readFile_getElem?] at e
  rw [if_pos (by omega), if_pos (by omega), show j * params.blockPl + (x - j * params.blockPl) = x by omega] at e
  by_cases hx : x < f.length
  · rw [List.getElem?_eq_getElem hx, List.getElem?_eq_getElem (by omega)] at e ⊢
    simpa using e
  · rw [List.getElem?_eq_none (by omega), List.getElem?_eq_none (by omega)]

/-- Every position lies in some block. -/
theorem in_block {b : Nat} (hb : 0 < b) {k x : Nat} (h : x < k * b) : ∃ j < k, j * b ≤ x ∧ x < j * b + b := by
  refine ⟨x / b, Nat.div_lt_of_lt_mul (by rw [Nat.mul_comm]; exact h), Nat.div_mul_le_self x b, ?_⟩
  have := Nat.div_add_mod x b
  have := Nat.mod_lt x hb
  rw [Nat.mul_comm b] at *
  omega

end PoS
