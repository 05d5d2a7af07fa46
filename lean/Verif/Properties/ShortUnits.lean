import Verif.Properties.UnitSize
import Verif.Properties.Encoding
import Mathlib.Data.Set.Card
import Mathlib.Tactic.Ring
import Mathlib.Tactic.NormNum

/-
C97, continued: padded units too short for the modulus.
-/

set_option linter.unusedSectionVars false
set_option exponentiation.threshold 1100
set_option maxRecDepth 10000

namespace PoS

/-- What the delay encoder writes for the input value `v`: the little-endian bytes of the encoded
residue, padded to `l` bytes when they are fewer, and never cut. -/
def encBytes (key : Int) (t l v : Nat) : Bytes :=
  toLE (Rug.sloth (v : Int) key t).natAbs ++ zeros (l - (toLE (Rug.sloth (v : Int) key t).natAbs).length)

/-- By how much the encoding of `v` exceeds `l` bytes. -/
def excess (key : Int) (t l v : Nat) : Nat := (toLE (Rug.sloth (v : Int) key t).natAbs).length - l

theorem vde_encBytes (x : Bytes) (key : Int) (t : Nat) (mode : String) (l : Nat) :
    Rug.vde x key t mode l = encBytes key t l (leNat x) := by
  unfold Rug.vde encBytes
  simp only [ite_self]
  split
  · rfl
  · rename_i h
    rw [show l - (toLE (Rug.sloth (leNat x : Int) key t).natAbs).length = 0 by omega]
    simp [zeros]

theorem encBytes_length (key : Int) (t l v : Nat) :
    (encBytes key t l v).length = l + excess key t l v := by
  unfold encBytes excess
  simp only [List.length_append, zeros, List.length_replicate]
  omega

section
variable {H : Bytes → Bytes} {params : PosPara} {key : Int} {iv : Bytes} {idxsS : List (List Nat)}
  {ids : List Bytes} {deps : List (List Bytes)} {unitCnt idx2 : Nat}

theorem sealPass_last {s t : List Bytes × List Nat} (hs : s.1.length = unitCnt)
    (h : forUp unitCnt (fun idx1 s =>
      sealUnit H params key iv idxsS ids deps unitCnt idx2 idx1 s) s = .ok t) :
    t.1 = (t.2.drop (t.2.length - unitCnt)).map (encBytes key params.vdeRounds params.unitPl) := by
  have key := forUp_inv (P := fun k (r : List Bytes × List Nat) => r.1.length = unitCnt ∧
    ∃ vs : List Nat, vs.length = k ∧ r.2 = s.2 ++ vs ∧
      r.1.take k = vs.map (encBytes key params.vdeRounds params.unitPl))
    ⟨hs, [], rfl, by simp, by simp⟩ (by
      rintro k hk a b ⟨h1, vs, h2, h3, h4⟩ hab
      unfold sealUnit at hab
      simp only [bind_eq_ok] at hab
      obtain ⟨d1, -, d2, -, u, -, m, -, bl, hb, hab⟩ := hab
      cases hab
      unfold put! at hb
      split at hb
      · cases hb
        refine ⟨by simpa using h1, vs ++ [leNat m], by simp [h2], by simp [h3], ?_⟩
        rw [List.take_succ, List.map_append, ← h4, List.take_set_of_le (le_refl k),
          List.getElem?_set_self (by omega), vde_encBytes]
        simp
      · cases hb) h
  obtain ⟨h1, vs, h2, h3, h4⟩ := key
  rw [List.take_of_length_le (by omega)] at h4
  rw [h3, List.length_append, h2, Nat.add_sub_cancel, List.drop_left, h4]

/-- After sealing, the units of a block are the encodings of the last encoder inputs. -/
theorem sealRoundsLoop_last {s t : List Bytes × List Nat} (hr : 0 < params.sealRounds)
    (hs : s.1.length = unitCnt)
    (h : sealRoundsLoop H params key iv idxsS ids deps unitCnt idx2 s = .ok t) :
    t.1 = (t.2.drop (t.2.length - unitCnt)).map (encBytes key params.vdeRounds params.unitPl) := by
  obtain ⟨r, hr'⟩ : ∃ r, params.sealRounds = r + 1 := ⟨params.sealRounds - 1, by omega⟩
  unfold sealRoundsLoop at h
  rw [hr', forUp_succ, bind_eq_ok] at h
  obtain ⟨a, h1, h2⟩ := h
  refine sealPass_last ?_ h2
  exact forUp_inv (P := fun _ (r : List Bytes × List Nat) => r.1.length = unitCnt) hs
    (fun k _ a b ha hab => forUp_inv (P := fun _ (r : List Bytes × List Nat) => r.1.length = unitCnt) ha
      (fun j _ a b ha hab => by
        unfold sealUnit at hab
        simp only [bind_eq_ok] at hab
        obtain ⟨d1, -, d2, -, u, -, m, -, bl, hb, hab⟩ := hab
        cases hab
        unfold put! at hb
        split at hb
        · cases hb
          simpa using ha
        · cases hb) hab) h1

end

/-- The number of bytes by which sealing block 0 overruns the block. -/
def overrun (params : PosPara) (key : Int) (c : Nat) (log : List Nat) : Nat :=
  ((log.drop (log.length - c)).map (excess key params.vdeRounds params.unitPl)).sum

theorem overrun_sum (key : Int) (t l : Nat) (vs : List Nat) :
    ((vs.map (encBytes key t l)).flatten).length = vs.length * l + (vs.map (excess key t l)).sum := by
  induction vs with
  | nil => simp
  | cons v vs ih =>
    simp only [List.map_cons, List.flatten_cons, List.length_append, ih, encBytes_length, List.length_cons,
      List.sum_cons]
    ring

/-- Files that agree outside the stretch that sealing block 0 overruns lead to the same state after
block 0. -/
theorem sealFile_overrun {H : Bytes → Bytes} {params : PosPara} {key : Int} {iv : Bytes} {n c : Nat}
    (hlay : Layout params n c) (hn : 0 < n) (hr : 0 < params.sealRounds)
    {p₁ p₂ : Bytes} {st : SealState}
    (hst : sealPrefix H params p₁ key iv 1 = .ok st)
    (hd : ∀ i, i < params.blockPl ∨ params.blockPl + overrun params key c st.log ≤ i → p₁[i]? = p₂[i]?) :
    sealFile H params p₁ key iv = sealFile H params p₂ key iv := by
  unfold sealFile sealPrefix
  unfold sealPrefix at hst
  simp only [div!_of_pos hlay.block_pos, bind_ok, hlay.cnt] at hst ⊢
  cases hL : idxsLOf params n with
  | error e => simp only [bind_error]
  | ok idxsL =>
    cases hS : idxsSOf params n with
    | error e => simp only [bind_ok, bind_error]
    | ok idxsS =>
      rw [hL, hS] at hst
      simp only [bind_ok] at hst ⊢
      obtain ⟨m, rfl⟩ : ∃ m, n = m + 1 := ⟨n - 1, by omega⟩
      rw [forUp_succ', forUp_succ']
      congr 1
      rw [forUp_succ, forUp_zero, bind_ok] at hst
      rw [hst]
      have hLO : LongOk idxsL := by
        unfold idxsLOf at hL
        split at hL
        · exact createLongDepend_longOk hL
        · cases hL
          intro i l hl
          simp at hl
      have hdep : sealDependBlocks H params (m + 1) idxsL p₂ (List.replicate (m + 1) []) 0 =
          sealDependBlocks H params (m + 1) idxsL p₁ (List.replicate (m + 1) []) 0 := by
        rw [sealDependBlocks_eq (beforeId := []) (file' := p₁) hLO (by simp) (by intro i hi; omega),
          sealDependBlocks_eq (beforeId := []) (file' := p₁) hLO (by simp) (by intro i hi; omega)]
      have hread : readFile p₂ (0 * params.blockPl) params.blockPl =
          readFile p₁ (0 * params.blockPl) params.blockPl := by
        apply List.ext_getElem?
        intro i
        rw [readFile_getElem?, readFile_getElem?]
        split
        · rw [hd (0 * params.blockPl + i) (Or.inl (by omega))]
        · rfl
      unfold sealBlock at hst ⊢
      simp only [hdep, hread] at hst ⊢
      rw [toUnits_plain hlay] at hst ⊢
      simp only [bind_ok] at hst ⊢
      simp only [bind_eq_ok] at hst
      obtain ⟨deps, e1, r, e2, out, e3, ids, e4, e5⟩ := hst
      rw [e1]
      simp only [bind_ok]
      rw [e2]
      simp only [bind_ok]
      rw [e3]
      simp only [bind_ok]
      rw [e4]
      simp only [bind_ok]
      cases e5
      simp only at hd
      have hc : (plainUnits params c p₁ 0).length = c := by simp [plainUnits]
      rw [hc] at e2
      have hlast := sealRoundsLoop_last (s := (plainUnits params c p₁ 0, [])) hr hc e2
      have hlen := (sealRoundsLoop_long e2 (fun u hu => by
        have := plainUnits_unit params c p₁ 0 u hu
        omega)).2
      simp only [hc] at hlen
      rw [comUnits_eq] at e3
      cases e3
      have hout : r.1.flatten.length = params.blockPl + overrun params key c r.2 := by
        have hvs : (r.2.drop (r.2.length - c)).length = c := by
          have := congrArg List.length hlast
          rw [List.length_map] at this
          omega
        rw [hlast, overrun_sum, hvs, hlay.block]
        rfl
      have hw : writeAt p₂ (0 * params.blockPl) r.1.flatten = writeAt p₁ (0 * params.blockPl) r.1.flatten := by
        unfold writeAt
        simp only [Nat.zero_mul, Nat.zero_sub, List.take_zero, Nat.zero_add]
        congr 1
        apply List.ext_getElem?
        intro i
        rw [List.getElem?_drop, List.getElem?_drop, hd (r.1.flatten.length + i) (Or.inr (by omega))]
      rw [hw]
      rfl

/-- Padding two files that differ in the first byte of the second block gives files that differ in
the first byte of the second padded block. -/
theorem copyAndPad_second {params : PosPara} {n c : Nat} (hs : Sizes params n c) (hn : 2 ≤ n)
    {front back : Bytes} (hf : front.length = params.blockL)
    (hl : front.length + 1 + back.length = params.dataL) :
    ∃ pf pb : Bytes, pf.length = params.blockPl ∧ ∀ b : UInt8,
      copyAndPad (front ++ b :: back) params.dataL params.unitL = .ok (pf ++ b :: pb) := by
  obtain ⟨ua, a1, a2, a3⟩ := exists_units front params.unitL c (by rw [hf, hs.block])
  have hup := hs.unit_pos
  obtain ⟨m, rfl⟩ : ∃ m, n = m + 2 := ⟨n - 2, by omega⟩
  obtain ⟨d, hd⟩ : ∃ d, c = d + 1 := ⟨c - 1, by have := hs.c_pos; omega⟩
  have hdata : params.dataL = c * params.unitL + params.unitL + (m * c + d) * params.unitL := by
    rw [hs.data, hs.block, hd]
    ring
  have hb : back.length = (params.unitL - 1) + (m * c + d) * params.unitL := by
    rw [hf, hs.block, hdata] at hl
    omega
  obtain ⟨ub, b1, b2, b3⟩ := exists_units (back.drop (params.unitL - 1)) params.unitL (m * c + d) (by
    rw [List.length_drop]; omega)
  refine ⟨(padUnits ua).flatten, back.take (params.unitL - 1) ++ [0] ++ (padUnits ub).flatten, ?_, fun b => ?_⟩
  · rw [flatten_length_const (padUnits ua) params.unitPl (by
      intro v hv
      unfold padUnits at hv
      rw [List.mem_map] at hv
      obtain ⟨u, hu, rfl⟩ := hv
      simp [a2 u hu, hs.unit_pl])]
    simp [padUnits, a1, hs.block_pl]
  · have h := copyAndPad_eq (us := ua ++ (b :: back.take (params.unitL - 1)) :: ub) hup (by
      intro u hu
      rcases List.mem_append.mp hu with h | h
      · exact a2 u h
      · rcases List.mem_cons.mp h with h | h
        · rw [h, List.length_cons, List.length_take]
          omega
        · exact b2 u h)
    have e1 : (ua ++ (b :: back.take (params.unitL - 1)) :: ub).flatten = front ++ b :: back := by
      rw [List.flatten_append, a3, List.flatten_cons, b3, List.cons_append, List.take_append_drop]
    have e2 : (ua ++ (b :: back.take (params.unitL - 1)) :: ub).length * params.unitL = params.dataL := by
      rw [List.length_append, List.length_cons, a1, b1, hdata]
      ring
    rw [e1, e2] at h
    rw [h]
    simp [padUnits]

/-- When the encodings that sealing block 0 writes do not fit their padded units, the file is written
beyond the block, over the beginning of the second block, which has not been read yet.  So files that
agree outside the overrun are sealed to the same result. -/
theorem C97_short_units (H : Bytes → Bytes) (params : PosPara) (n c : Nat) (hs : Sizes params n c) (hn : 0 < n)
    (hr : 0 < params.sealRounds) (key : Int) (iv p₁ p₂ : Bytes) (st : SealState)
    (hst : sealPrefix H params p₁ key iv 1 = .ok st)
    (hd : ∀ i, i < params.blockPl ∨ params.blockPl + ((st.log.drop (st.log.length - c)).map (fun v : Nat =>
      (toLE (Rug.sloth (v : Int) key params.vdeRounds).natAbs).length - params.unitPl)).sum ≤ i →
        p₁[i]? = p₂[i]?) :
    sealFile H params p₁ key iv = sealFile H params p₂ key iv :=
  sealFile_overrun ⟨by have := hs.unit_pl; omega, hs.block_pl, by
      rw [hs.data, Nat.mul_div_cancel _ (by rw [hs.block]; exact Nat.mul_pos hs.c_pos hs.unit_pos)], by
      rw [hs.block]; exact Nat.mul_pos hs.c_pos hs.unit_pos⟩ hn hr hst hd

/-- In particular, when a single encoding of the last pass over block 0 does not fit, the first byte
of the second block is lost: whatever it is, the same file is sealed, and of two files that differ
in it not both can be retrieved. -/
theorem C97_short_units_lost (H : Bytes → Bytes) (params : PosPara) (n c : Nat) (hs : Sizes params n c) (hn : 2 ≤ n)
    (hr : 0 < params.sealRounds) (key : Int) (iv front back : Bytes) (hf : front.length = params.blockL)
    (hl : front.length + 1 + back.length = params.dataL) (b₁ b₂ : UInt8) (p₁ : Bytes) (st : SealState)
    (hp : copyAndPad (front ++ b₁ :: back) params.dataL params.unitL = .ok p₁)
    (hst : sealPrefix H params p₁ key iv 1 = .ok st) (v : Nat) (hv : v ∈ st.log.drop (st.log.length - c))
    (hbig : 256 ^ params.unitPl ≤ (Rug.sloth (v : Int) key params.vdeRounds).natAbs) :
    (∃ p₂, copyAndPad (front ++ b₂ :: back) params.dataL params.unitL = .ok p₂ ∧
      sealFile H params p₂ key iv = sealFile H params p₁ key iv) ∧
    (b₁ ≠ b₂ → ¬ (storeAndRetrieve H params (front ++ b₁ :: back) key iv = .ok (front ++ b₁ :: back) ∧
      storeAndRetrieve H params (front ++ b₂ :: back) key iv = .ok (front ++ b₂ :: back))) := by
  obtain ⟨pf, pb, hpf, hpad⟩ := copyAndPad_second hs hn hf hl
  rw [hpad b₁] at hp
  cases hp
  have hpos : 1 ≤ ((st.log.drop (st.log.length - c)).map (fun v : Nat =>
      (toLE (Rug.sloth (v : Int) key params.vdeRounds).natAbs).length - params.unitPl)).sum := by
    have h := List.le_sum_of_mem (List.mem_map_of_mem (f := fun v : Nat =>
      (toLE (Rug.sloth (v : Int) key params.vdeRounds).natAbs).length - params.unitPl) hv)
    have := toLE_length_gt hbig
    omega
  have e := C97_short_units H params n c hs (by omega) hr key iv (pf ++ b₁ :: pb) (pf ++ b₂ :: pb) st hst (by
    intro i hi
    rw [List.getElem?_append, List.getElem?_append]
    split
    · rfl
    · rename_i h
      obtain ⟨j, hj⟩ : ∃ j, i - pf.length = j + 1 := ⟨i - pf.length - 1, by omega⟩
      rw [hj, List.getElem?_cons_succ, List.getElem?_cons_succ])
  refine ⟨⟨_, hpad b₂, e.symm⟩, fun hb ⟨h1, h2⟩ => hb ?_⟩
  have e' : storeAndRetrieve H params (front ++ b₁ :: back) key iv =
      storeAndRetrieve H params (front ++ b₂ :: back) key iv := by
    unfold storeAndRetrieve
    rw [hpad b₁, hpad b₂, bind_ok, bind_ok, e]
  rw [h1, h2] at e'
  have := List.append_cancel_left (Except.ok.inj e')
  exact (List.cons.inj this).1

/-- Encodings that do fit are rare when the unit is shorter than the modulus: exactly `256 ^ l - 1` of
the `p - 1` non-zero residues have one. -/
theorem C97_fitting_inputs {p : Nat} (hp : p.Prime) (h34 : p % 4 = 3) (t l : Nat) (hl : 256 ^ l ≤ p) :
    {v : Nat | 0 < v ∧ v < p ∧ (Rug.sloth (v : Int) (p : Int) t).natAbs < 256 ^ l}.ncard = 256 ^ l - 1 := by
  obtain ⟨-, hb, hi⟩ := C09_sloth_bijection hp h34 t
  have e : {v : Nat | 0 < v ∧ v < p ∧ (Rug.sloth (v : Int) (p : Int) t).natAbs < 256 ^ l} =
      (fun w : Nat => (Rug.slothInv (w : Int) (p : Int) t).toNat) '' (Set.Icc 1 (256 ^ l - 1)) := by
    ext v
    simp only [Set.mem_ofPred_eq, Set.mem_image, Set.mem_Icc]
    constructor
    · rintro ⟨h1, h2, h3⟩
      have hm : (v : Int) ∈ Set.Icc (1 : Int) ((p : Int) - 1) := ⟨by omega, by omega⟩
      have h4 := (C09_sloth_bijection hp h34 t).1.mapsTo hm
      simp only [Set.mem_Icc] at h4
      refine ⟨(Rug.sloth (v : Int) (p : Int) t).toNat, ⟨by omega, by omega⟩, ?_⟩
      have h5 := hi.1 hm
      simp only at h5
      rw [Int.toNat_of_nonneg (by omega), h5, Int.toNat_natCast]
    · rintro ⟨w, ⟨h1, h2⟩, rfl⟩
      have hm : (w : Int) ∈ Set.Icc (1 : Int) ((p : Int) - 1) := ⟨by omega, by omega⟩
      have h4 := hb.mapsTo hm
      simp only [Set.mem_Icc] at h4
      have h5 := hi.2 hm
      simp only at h5
      refine ⟨by omega, by omega, ?_⟩
      rw [Int.toNat_of_nonneg (by omega), h5]
      omega
  rw [e, Set.InjOn.ncard_image, ← Finset.coe_Icc, Set.ncard_coe_finset, Nat.card_Icc]
  · omega
  · intro a ha b hb' hab
    simp only [Set.mem_Icc] at ha hb'
    have ma : (a : Int) ∈ Set.Icc (1 : Int) ((p : Int) - 1) := ⟨by omega, by omega⟩
    have mb : (b : Int) ∈ Set.Icc (1 : Int) ((p : Int) - 1) := ⟨by omega, by omega⟩
    have ga := hb.mapsTo ma
    have gb := hb.mapsTo mb
    simp only [Set.mem_Icc] at ga gb
    have : Rug.slothInv (a : Int) (p : Int) t = Rug.slothInv (b : Int) (p : Int) t := by
      simp only at hab
      omega
    exact_mod_cast hb.injOn ma mb this

/-- With padded units shorter than 128 bytes, other than 64, `prepare_params` returns the 1024-bit
modulus, which is above `225 * 256 ^ 127`, and only `256 ^ unit_pl - 1` of its `P_1024 - 1` non-zero
residues have an encoding that fits a padded unit. -/
theorem C97_short_key (unitPl : Nat) (h : unitPl < 128) (hne : unitPl ≠ 64) (t : Nat) :
    prepareKey unitPl = P_1024 ∧ 225 * 256 ^ 127 < P_1024 ∧
    {v : Nat | 0 < v ∧ (v : Int) < P_1024 ∧
      (Rug.sloth (v : Int) (prepareKey unitPl) t).natAbs < 256 ^ unitPl}.ncard = 256 ^ unitPl - 1 := by
  have hk : prepareKey unitPl = P_1024 := by
    unfold prepareKey
    rw [if_neg (by omega), if_neg (by omega), if_neg (by omega)]
  have hlo : 225 * (256 : Int) ^ 127 < P_1024 := by decide +kernel
  refine ⟨hk, hlo, ?_⟩
  obtain ⟨⟨p, hp, hpr⟩, -⟩ := C54_large_primes
  have h34 : P_1024 % 4 = 3 := by decide +kernel
  rw [hk]
  rw [← hp] at hlo h34 ⊢
  have hle : 256 ^ unitPl ≤ p := by
    have h1 : 256 ^ unitPl ≤ 256 ^ 127 := Nat.pow_le_pow_right (by norm_num) (by omega)
    have h2 : 225 * 256 ^ 127 < p := by exact_mod_cast hlo
    omega
  rw [← C97_fitting_inputs hpr (by omega) t unitPl hle]
  congr 1
  ext v
  simp only [Set.mem_ofPred_eq, Nat.cast_lt]

/- Two blocks of three units of 32 bytes: sealing block 0 writes 384 bytes instead of 96, so all of
the second block is overwritten before it is read. -/
example : (sealPrefix toyHash (sizeParams 32) (zeros 192) (prepareKey 32) [1] 1).toOption.map (fun st =>
    (st.file.length, ((st.log.drop (st.log.length - 3)).map (fun v : Nat =>
      (toLE (Rug.sloth (v : Int) (prepareKey 32) 1).natAbs).length - 32)).sum)) = some (384, 288) := by
  decide +kernel

example : ∃ p₁ p₂, copyAndPad (zeros 186) 186 31 = .ok p₁ ∧ copyAndPad (zeros 93 ++ 5 :: zeros 92) 186 31 = .ok p₂ ∧
    sealFile toyHash (sizeParams 32) p₂ (prepareKey 32) [1] =
      sealFile toyHash (sizeParams 32) p₁ (prepareKey 32) [1] := by
  have h0 : zeros 186 = zeros 93 ++ 0 :: zeros 92 := by decide
  have hc : ∃ st, sealPrefix toyHash (sizeParams 32) (zeros 192) (prepareKey 32) [1] 1 = .ok st ∧
      ∃ v ∈ st.log.drop (st.log.length - 3), 256 ^ 32 ≤ (Rug.sloth (v : Int) (prepareKey 32) 1).natAbs := by
    have h : (sealPrefix toyHash (sizeParams 32) (zeros 192) (prepareKey 32) [1] 1).toOption.map (fun st =>
        (st.log.drop (st.log.length - 3)).any (fun v : Nat =>
          decide (256 ^ 32 ≤ (Rug.sloth (v : Int) (prepareKey 32) 1).natAbs))) = some true := by
      decide +kernel
    cases hs : sealPrefix toyHash (sizeParams 32) (zeros 192) (prepareKey 32) [1] 1 with
    | error e => rw [hs] at h; cases h
    | ok st =>
      rw [hs] at h
      simp only [Except.toOption, Option.map_some, Option.some.injEq, List.any_eq_true,
        decide_eq_true_eq] at h
      exact ⟨st, rfl, h⟩
  obtain ⟨st, h1, v, h2, h3⟩ := hc
  have hp : copyAndPad (zeros 93 ++ 0 :: zeros 92) 186 31 = .ok (zeros 192) := by decide +kernel
  obtain ⟨⟨p₂, g1, g2⟩, -⟩ := C97_short_units_lost toyHash (sizeParams 32) 2 3 (sizeParams_sizes 32 (by norm_num)) (by norm_num)
    (by simp [sizeParams]) (prepareKey 32) [1] (zeros 93) (zeros 92) List.length_replicate
    (by simp [sizeParams, zeros]) 0 5 (zeros 192) st hp h1 v h2 h3
  exact ⟨zeros 192, p₂, by rw [h0]; exact hp, g1, g2⟩

end PoS
