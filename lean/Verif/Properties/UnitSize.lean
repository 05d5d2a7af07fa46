import Verif.Properties.Postorage
import Verif.Proofs.UnsealExact
import Verif.Proofs.Prime1024
import Verif.Proofs.Prime2048
import Verif.Spec.Toy

/-
C54 (the two large moduli) and C97: for which unit sizes the modulus chosen by `prepare_params`
works.
-/

namespace PoS

set_option linter.unusedSectionVars false

section
variable {H : Bytes → Bytes} {params : PosPara} {key : Int} {iv : Bytes} {idxsS : List (List Nat)}
  {ids : List Bytes} {deps : List (List Bytes)} {unitCnt idx2 : Nat}

/-- Sealing the first unit of a block forgets everything about it but its residue. -/
theorem sealUnit_first (hs : ShortOk idxsS) {x y : Bytes} {rest : List Bytes} {log : List Nat}
    (hm : ∀ mask, modadd x mask key = modadd y mask key) :
    sealUnit H params key iv idxsS ids deps unitCnt idx2 0 (x :: rest, log) =
      sealUnit H params key iv idxsS ids deps unitCnt idx2 0 (y :: rest, log) := by
  have e : sealDependData H params idxsS deps (y :: rest) unitCnt 0 =
      sealDependData H params idxsS deps (x :: rest) unitCnt 0 :=
    sealDependData_set (cur := x :: rest) (v := y) hs
  unfold sealUnit
  simp only [e]
  simp only [at!, put!, List.getElem?_cons_zero, bind_ok, hm, List.set_cons_zero, List.length_cons]

theorem vde_length_ge (x : Bytes) (p : Int) (t : Nat) (mode : String) (l : Nat) :
    l ≤ (Rug.vde x p t mode l).length := by
  unfold Rug.vde
  simp only []
  split <;> split <;> (try simp only [List.length_append, zeros, List.length_replicate]) <;> omega

theorem sealUnit_long {idx1 : Nat} {s t : List Bytes × List Nat}
    (h : sealUnit H params key iv idxsS ids deps unitCnt idx2 idx1 s = .ok t)
    (hs : ∀ u ∈ s.1, params.unitPl ≤ u.length) :
    (∀ u ∈ t.1, params.unitPl ≤ u.length) ∧ t.1.length = s.1.length := by
  unfold sealUnit at h
  simp only [bind_eq_ok] at h
  obtain ⟨d1, -, d2, -, u, -, m, -, b, hb, h⟩ := h
  cases h
  unfold put! at hb
  split at hb
  · cases hb
    refine ⟨fun v hv => ?_, by simp⟩
    rcases List.mem_or_eq_of_mem_set hv with h | h
    · exact hs v h
    · rw [h]
      exact vde_length_ge _ _ _ _ _
  · cases hb

theorem sealRoundsLoop_long {s t : List Bytes × List Nat}
    (h : sealRoundsLoop H params key iv idxsS ids deps unitCnt idx2 s = .ok t)
    (hs : ∀ u ∈ s.1, params.unitPl ≤ u.length) :
    (∀ u ∈ t.1, params.unitPl ≤ u.length) ∧ t.1.length = s.1.length := by
  unfold sealRoundsLoop at h
  exact forUp_inv (P := fun _ (r : List Bytes × List Nat) =>
      (∀ u ∈ r.1, params.unitPl ≤ u.length) ∧ r.1.length = s.1.length) ⟨hs, rfl⟩
    (fun k _ a b ha hab => forUp_inv (P := fun _ (r : List Bytes × List Nat) =>
      (∀ u ∈ r.1, params.unitPl ≤ u.length) ∧ r.1.length = s.1.length) ha
      (fun j _ a b ha hab => by
        obtain ⟨g1, g2⟩ := sealUnit_long hab ha.1
        exact ⟨g1, g2.trans ha.2⟩) hab) h

theorem sealRoundsLoop_first (hs : ShortOk idxsS) (hr : 0 < params.sealRounds) (hu : 0 < unitCnt)
    {x y : Bytes} {rest : List Bytes} {log : List Nat}
    (hm : ∀ mask, modadd x mask key = modadd y mask key) :
    sealRoundsLoop H params key iv idxsS ids deps unitCnt idx2 (x :: rest, log) =
      sealRoundsLoop H params key iv idxsS ids deps unitCnt idx2 (y :: rest, log) := by
  obtain ⟨r, hr'⟩ : ∃ r, params.sealRounds = r + 1 := ⟨params.sealRounds - 1, by omega⟩
  obtain ⟨c, rfl⟩ : ∃ c, unitCnt = c + 1 := ⟨unitCnt - 1, by omega⟩
  unfold sealRoundsLoop
  rw [hr', forUp_succ', forUp_succ' (s := (y :: rest, log))]
  congr 1
  rw [forUp_succ', forUp_succ' (s := (y :: rest, log)), sealUnit_first hs hm]

end

/-- Two files that differ in the first unit only, by a multiple of the modulus, are sealed alike. -/
theorem sealFile_first {H : Bytes → Bytes} {params : PosPara} {key : Int} {iv : Bytes} {n c : Nat}
    (hlay : Layout params n c) (hn : 0 < n) (hc : 0 < c) (hr : 0 < params.sealRounds)
    {x y rest : Bytes} (hx : x.length = params.unitPl) (hy : y.length = params.unitPl)
    (hm : ∀ mask, modadd x mask key = modadd y mask key) :
    sealFile H params (x ++ rest) key iv = sealFile H params (y ++ rest) key iv := by
  unfold sealFile sealPrefix
  simp only [div!_of_pos hlay.block_pos, bind_ok, hlay.cnt]
  cases hL : idxsLOf params n with
  | error e => simp only [bind_error]
  | ok idxsL =>
    cases hS : idxsSOf params n with
    | error e => simp only [bind_ok, bind_error]
    | ok idxsS =>
      simp only [bind_ok]
      obtain ⟨m, rfl⟩ : ∃ m, n = m + 1 := ⟨n - 1, by omega⟩
      rw [forUp_succ', forUp_succ']
      congr 1
      have hLO : LongOk idxsL := by
        unfold idxsLOf at hL
        split at hL
        · exact createLongDepend_longOk hL
        · cases hL
          intro i l hl
          simp at hl
      have hd : ∀ f g : Bytes, sealDependBlocks H params (m + 1) idxsL f (List.replicate (m + 1) []) 0 =
          sealDependBlocks H params (m + 1) idxsL g (List.replicate (m + 1) []) 0 := by
        intro f g
        rw [sealDependBlocks_eq (beforeId := []) (file' := f) hLO (by simp) (by intro i hi; omega),
          sealDependBlocks_eq (beforeId := []) (file' := f) hLO (by simp) (by intro i hi; omega)]
      have hpl : ∀ z : Bytes, z.length = params.unitPl →
          ∃ us, plainUnits params c (z ++ rest) 0 = z :: us ∧
            us = (List.range (c - 1)).map (fun j => readFile rest (j * params.unitPl) params.unitPl) := by
        intro z hz
        refine ⟨_, ?_, rfl⟩
        obtain ⟨c', rfl⟩ : ∃ c', c = c' + 1 := ⟨c - 1, by omega⟩
        unfold plainUnits
        rw [List.range_succ_eq_map, List.map_cons, List.map_map]
        congr 1
        · simp [readFile, hz, zeros]
        · apply List.map_congr_left
          intro j _
          simp only [Function.comp, Nat.zero_mul, Nat.zero_add]
          apply List.ext_getElem?
          intro i
          rw [readFile_getElem?, readFile_getElem?]
          split
          · rw [List.getElem?_append_right (by rw [hz, Nat.succ_mul]; omega),
              show j.succ * params.unitPl + i - z.length = j * params.unitPl + i by
                rw [hz, Nat.succ_mul]; omega]
          · rfl
      obtain ⟨us, h1, eus⟩ := hpl x hx
      obtain ⟨us', h2, eus'⟩ := hpl y hy
      subst eus'
      subst eus
      unfold sealBlock
      simp only [toUnits_plain hlay, bind_ok, h1, h2, hd (x ++ rest) (y ++ rest)]
      cases hdep : sealDependBlocks H params (m + 1) idxsL (y ++ rest) (List.replicate (m + 1) []) 0 with
      | error e => rfl
      | ok deps =>
        simp only [bind_ok, List.length_cons]
        rw [sealRoundsLoop_first (idxsSOf_shortOk hS) hr (by omega) hm]
        generalize hrun : sealRoundsLoop H params key iv idxsS _ deps _ 0 _ = run
        cases run with
        | error e => rfl
        | ok r =>
          simp only [bind_ok, comUnits_eq]
          cases put! (List.replicate (m + 1) ([] : Bytes)) 0 (H r.1.flatten) with
          | error e => rfl
          | ok ids =>
            simp only [bind_ok]
            have hlong := sealRoundsLoop_long hrun (by
              intro u hu
              have := plainUnits_unit params c (y ++ rest) 0 u (by rw [h2]; exact hu)
              omega)
            have hge : params.unitPl ≤ r.1.flatten.length := by
              obtain ⟨g1, g2⟩ := hlong
              cases hr1 : r.1 with
              | nil => rw [hr1] at g2; simp at g2
              | cons u us =>
                have := g1 u (by rw [hr1]; simp)
                simp
                omega
            have hw : writeAt (x ++ rest) (0 * params.blockPl) r.1.flatten =
                writeAt (y ++ rest) (0 * params.blockPl) r.1.flatten := by
              unfold writeAt
              simp only [Nat.zero_mul, Nat.zero_sub, List.take_zero, Nat.zero_add]
              rw [List.drop_append, List.drop_append, List.drop_eq_nil_of_le (as := x) (by omega),
                List.drop_eq_nil_of_le (as := y) (by omega), hx, hy]
            rw [hw]

/-- The 1024- and the 2048-bit modulus are prime. -/
theorem C54_large_primes : (∃ p : Nat, (p : Int) = P_1024 ∧ p.Prime) ∧ (∃ p : Nat, (p : Int) = P_2048 ∧ p.Prime) :=
  ⟨⟨_, rfl, e1024_0⟩, ⟨_, rfl, e2048_0⟩⟩

/-- The sizes of a consistent parameter set: `n` blocks of `c` units, one padding byte per unit. -/
structure Sizes (params : PosPara) (n c : Nat) : Prop where
  unit_pos : 0 < params.unitL
  unit_pl : params.unitPl = params.unitL + 1
  c_pos : 0 < c
  block : params.blockL = c * params.unitL
  block_pl : params.blockPl = c * params.unitPl
  data : params.dataL = n * params.blockL

/-- For padded units of 64, 128 and 256 bytes the modulus chosen by `prepare_params` satisfies
everything sealing relies on: it is a prime, 3 modulo 4, above every plaintext unit and every
digest, and fits a padded unit. -/
theorem C97_supported (params : PosPara) (n c : Nat) (hs : Sizes params n c)
    (hu : params.unitPl = 64 ∨ params.unitPl = 128 ∨ params.unitPl = 256) :
    ∃ p : Nat, (p : Int) = prepareKey params.unitPl ∧ Config params p n c := by
  have h0 := hs.unit_pl
  rcases hu with h | h | h
  · have h1 : params.unitL = 63 := by omega
    refine ⟨_, by rw [h]; exact (rfl : ((_ : Nat) : Int) = P_512), hs.unit_pos, hs.unit_pl, hs.c_pos, hs.block,
      hs.block_pl, hs.data, prime_P_512, by norm_num, ?_, by norm_num, ?_⟩
    · rw [h1]; norm_num
    · rw [h]; norm_num
  · have h1 : params.unitL = 127 := by omega
    refine ⟨_, by rw [h]; exact (rfl : ((_ : Nat) : Int) = P_1024), hs.unit_pos, hs.unit_pl, hs.c_pos, hs.block,
      hs.block_pl, hs.data, e1024_0, by norm_num, ?_, by norm_num, ?_⟩
    · rw [h1]; norm_num
    · rw [h]; norm_num
  · have h1 : params.unitL = 255 := by omega
    refine ⟨_, by rw [h]; exact (rfl : ((_ : Nat) : Int) = P_2048), hs.unit_pos, hs.unit_pl, hs.c_pos, hs.block,
      hs.block_pl, hs.data, e2048_0, by norm_num, ?_, by norm_num, ?_⟩
    · rw [h1]; norm_num
    · rw [h]; norm_num

/-- Storing and retrieving with what `prepare_params` returns, for every supported unit size: padding
and sealing succeed, and the file comes back whenever no encoder input was zero. -/
theorem C97_round_trip (H : Bytes → Bytes) (hH : ∀ x, (H x).length = 32) (params : PosPara) (n c : Nat)
    (hs : Sizes params n c) (hu : params.unitPl = 64 ∨ params.unitPl = 128 ∨ params.unitPl = 256)
    (hL : params.modeL = 0) (hS : params.modeS = 0) (hn : LongCountOk n params.cntL) (hc : ShortCountOk c params.cntS)
    (rng : Nat → UInt8) (origin : Bytes) (hlen : origin.length = params.dataL) :
    ∃ padded st, copyAndPad origin params.dataL params.unitL = .ok padded ∧
      sealFile H params padded (prepareParams params.unitPl rng).1 (prepareParams params.unitPl rng).2 = .ok st ∧
      st.file.length = padded.length ∧ st.ids.length = n ∧
      ((∀ v ∈ st.log, v ≠ 0) →
        storeAndRetrieve H params origin (prepareParams params.unitPl rng).1
          (prepareParams params.unitPl rng).2 = .ok origin) := by
  obtain ⟨p, hp, cfg⟩ := C97_supported params n c hs hu
  have hk : (prepareParams params.unitPl rng).1 = (p : Int) := hp.symm
  rw [hk]
  generalize (prepareParams params.unitPl rng).2 = iv
  obtain ⟨padded, g1, g2, g3, -⟩ := padded_unitsBelow cfg hlen
  obtain ⟨st, s1, s2, s3, -⟩ := C02_seal_total H hH _ p n c cfg hL hS hn hc padded iv (by omega) g3
  refine ⟨padded, st, g1, s1, s2, s3, fun hz => ?_⟩
  obtain ⟨r1, r2⟩ := C01_round_trip H hH _ _ n c cfg hL origin hlen iv padded st g1 s1 hz
  unfold storeAndRetrieve
  rw [g1, bind_ok, s1, bind_ok, r1, bind_ok]
  exact r2

/-- With padded units of more than 128 bytes other than 256, two fixed different files are sealed
to the same file, whatever the hash, the iv and the dependency modes: no way of unsealing returns
both. -/
theorem C97_long_units (params : PosPara) (n c : Nat) (hs : Sizes params n c) (hn : 0 < n)
    (hr : 0 < params.sealRounds) (h : 128 < params.unitPl) (hne : params.unitPl ≠ 256) :
    ∃ o₁ o₂ p₁ p₂ : Bytes, o₁.length = params.dataL ∧ o₂.length = params.dataL ∧ o₁ ≠ o₂ ∧
      copyAndPad o₁ params.dataL params.unitL = .ok p₁ ∧ copyAndPad o₂ params.dataL params.unitL = .ok p₂ ∧
      ∀ (H : Bytes → Bytes) (iv : Bytes),
        sealFile H params p₁ (prepareKey params.unitPl) iv = sealFile H params p₂ (prepareKey params.unitPl) iv ∧
        ¬ (storeAndRetrieve H params o₁ (prepareKey params.unitPl) iv = .ok o₁ ∧
          storeAndRetrieve H params o₂ (prepareKey params.unitPl) iv = .ok o₂) := by
  obtain ⟨x, y, hx, hy, hxy, hm⟩ := C34_long_units_collide params.unitPl h hne
  have hul := hs.unit_pl
  have hup := hs.unit_pos
  have hcp := hs.c_pos
  have hnc : 0 < n * c := Nat.mul_pos hn hcp
  let us : List Bytes := List.replicate (n * c - 1) (zeros params.unitL)
  have hus : us.length = n * c - 1 := by simp [us]
  have hul' : ∀ z : Bytes, z.length = params.unitPl - 1 → ∀ u ∈ z :: us, u.length = params.unitL := by
    intro z hz u hu
    rcases List.mem_cons.mp hu with h | h
    · rw [h]; omega
    · rw [List.eq_of_mem_replicate h]; simp [zeros]
  have hdata : params.dataL = n * c * params.unitL := by rw [hs.data, hs.block, Nat.mul_assoc]
  have hlen : ∀ z : Bytes, z.length = params.unitPl - 1 → (z :: us).length * params.unitL = params.dataL := by
    intro z _
    rw [List.length_cons, hus, hdata]
    congr 1
    omega
  have hpad : ∀ z : Bytes, z.length = params.unitPl - 1 →
      copyAndPad (z ++ us.flatten) params.dataL params.unitL = .ok ((z ++ [0]) ++ (padUnits us).flatten) := by
    intro z hz
    have := copyAndPad_eq (us := z :: us) hup (hul' z hz)
    rw [hlen z hz] at this
    simpa [padUnits] using this
  have hol : ∀ z : Bytes, z.length = params.unitPl - 1 → (z ++ us.flatten).length = params.dataL := by
    intro z hz
    have := flatten_length_const (z :: us) params.unitL (hul' z hz)
    rw [hlen z hz] at this
    simpa using this
  have hlay : Layout params n c := ⟨by omega, hs.block_pl, by
      rw [hs.data, Nat.mul_div_cancel _ (by rw [hs.block]; exact Nat.mul_pos hcp hup)], by
      rw [hs.block]; exact Nat.mul_pos hcp hup⟩
  refine ⟨x ++ us.flatten, y ++ us.flatten, _, _, hol x hx, hol y hy,
    fun e => hxy (List.append_cancel_right e), hpad x hx, hpad y hy, fun H iv => ?_⟩
  have key := sealFile_first (H := H) (iv := iv) (rest := (padUnits us).flatten) hlay hn hcp hr
    (x := x ++ [0]) (y := y ++ [0]) (by simp; omega) (by simp; omega) hm
  refine ⟨key, fun ⟨h1, h2⟩ => hxy ?_⟩
  have e : storeAndRetrieve H params (x ++ us.flatten) (prepareKey params.unitPl) iv =
      storeAndRetrieve H params (y ++ us.flatten) (prepareKey params.unitPl) iv := by
    unfold storeAndRetrieve
    rw [hpad x hx, hpad y hy, bind_ok, bind_ok, key]
  rw [h1, h2] at e
  exact List.append_cancel_right (Except.ok.inj e)

/-- Two blocks of three units, with the given padded unit length. -/
def sizeParams (unitPl : Nat) : PosPara :=
  { dataL := 2 * (3 * (unitPl - 1)), blockL := 3 * (unitPl - 1), blockPl := 3 * unitPl, unitL := unitPl - 1,
    unitPl := unitPl, bigBlockL := 0, bigBlockPl := 0, sealRounds := 2, vdeRounds := 1, vdeMode := "sloth",
    modeL := 0, modeS := 0, cntL := 0, cntS := 10, leavesToProveCount := 1 }

theorem sizeParams_sizes (unitPl : Nat) (h : 1 < unitPl) : Sizes (sizeParams unitPl) 2 3 :=
  ⟨by simp only [sizeParams]; omega, by simp only [sizeParams]; omega, by norm_num, rfl, rfl, rfl⟩

/- Units of 128 and 256 bytes are supported; with 200 bytes two files collide. -/
example : (∃ p : Nat, (p : Int) = P_1024 ∧ Config (sizeParams 128) p 2 3) ∧
    (∃ p : Nat, (p : Int) = P_2048 ∧ Config (sizeParams 256) p 2 3) :=
  ⟨C97_supported _ 2 3 (sizeParams_sizes 128 (by norm_num)) (by simp [sizeParams]),
   C97_supported _ 2 3 (sizeParams_sizes 256 (by norm_num)) (by simp [sizeParams])⟩

example (rng : Nat → UInt8) : ∃ padded st, copyAndPad (zeros 762) 762 127 = .ok padded ∧
    sealFile toyHash (sizeParams 128) padded (prepareParams 128 rng).1 (prepareParams 128 rng).2 = .ok st ∧
    st.file.length = padded.length ∧ st.ids.length = 2 ∧
    ((∀ v ∈ st.log, v ≠ 0) → storeAndRetrieve toyHash (sizeParams 128) (zeros 762) (prepareParams 128 rng).1
      (prepareParams 128 rng).2 = .ok (zeros 762)) :=
  C97_round_trip toyHash toyHash_length (sizeParams 128) 2 3 (sizeParams_sizes 128 (by norm_num)) (by simp [sizeParams])
    rfl rfl (Or.inl (by norm_num)) (Or.inl (by norm_num)) rng (zeros 762) List.length_replicate

example := C97_long_units (sizeParams 200) 2 3 (sizeParams_sizes 200 (by norm_num)) (by norm_num)
  (by simp [sizeParams]) (by simp [sizeParams]) (by simp [sizeParams])

end PoS
