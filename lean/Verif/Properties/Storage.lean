import Verif.Proofs.Unseal
import Verif.Proofs.Primes
import Verif.Spec.Toy

/-
Properties of whole-file sealing and unsealing: C01, C02, C07, C08, C10 (unit level),
C28, C29, C57.
-/

namespace PoS

/-! ### Non-vacuity: a concrete configuration -/

theorem toyHash_length (x : Bytes) : (toyHash x).length = 32 := by
  unfold toyHash zeros; simp

/-- The toy configurations satisfy `Config` for the shipped 512-bit modulus. -/
theorem toy_config (n c modeL modeS cntL cntS rounds : Nat) (hc : 0 < c) :
    ∃ p : Nat, (p : Int) = P_512 ∧ Config (toyParams n c modeL modeS cntL cntS rounds) p n c := by
  refine ⟨_, rfl, ?_⟩
  exact
    { unit_pos := by show 0 < 63; norm_num
      unit_pl := rfl
      c_pos := hc
      block := rfl
      block_pl := rfl
      data := rfl
      prime := prime_P_512
      mod4 := by norm_num
      above_units := by show 256 ^ 63 ≤ _; norm_num
      above_hash := by norm_num
      fits := by show _ ≤ 256 ^ 64; norm_num }

/-! ### C01: storing then retrieving -/

/-- Padding succeeds and yields units that are residues. -/
theorem padded_unitsBelow {params : PosPara} {p n c : Nat} (cfg : Config params p n c) {origin : Bytes}
    (hlen : origin.length = params.dataL) :
    ∃ padded, copyAndPad origin params.dataL params.unitL = .ok padded ∧
      padded.length = n * params.blockPl ∧ UnitsBelow params p n c padded ∧
      copyAndCompress padded params.dataL params.unitL params.unitPl = .ok origin := by
  have hd : params.dataL = (n * c) * params.unitL := by rw [cfg.data, cfg.block, Nat.mul_assoc]
  obtain ⟨us, h1, h2, h3⟩ := exists_units origin params.unitL (n * c) (by rw [hlen, hd])
  have hp : ∀ v ∈ padUnits us, v.length = params.unitL + 1 := by
    intro v hv
    unfold padUnits at hv
    rw [List.mem_map] at hv
    obtain ⟨u, hu, rfl⟩ := hv
    simp [h2 u hu]
  refine ⟨(padUnits us).flatten, ?_, ?_, ?_, ?_⟩
  · have := copyAndPad_eq cfg.unit_pos h2
    rwa [h3, h1, ← hd] at this
  · rw [flatten_length_const _ _ hp, cfg.block_pl, cfg.unit_pl, ← Nat.mul_assoc]
    simp [padUnits, h1]
  · refine BlockOk.unitsBelow cfg.layout cfg.c_pos (fun i hi => ?_)
    have := padded_blockOk cfg.block_pl cfg.unit_pl cfg.above_units h1 h2 hi []
    rwa [List.append_nil] at this
  · have := copyAndCompress_eq cfg.unit_pos h2 []
    rw [List.append_nil, h3, h1, ← hd, ← cfg.unit_pl] at this
    exact this

/-- The round trip: whatever was sealed from the padded file is unsealed and compressed to
the original, provided no encoder input was zero. -/
theorem C01_round_trip (H : Bytes → Bytes) (hH : ∀ x, (H x).length = 32) (params : PosPara)
    (p n c : Nat) (cfg : Config params p n c) (hL : params.modeL = 0) (origin : Bytes)
    (hlen : origin.length = params.dataL) (iv padded : Bytes) (st : SealState)
    (hpad : copyAndPad origin params.dataL params.unitL = .ok padded)
    (hseal : sealFile H params padded (p : Int) iv = .ok st) (hlog : ∀ v ∈ st.log, v ≠ 0) :
    unsealFile H params st.file (p : Int) iv = .ok padded ∧
    copyAndCompress padded params.dataL params.unitL params.unitPl = .ok origin := by
  obtain ⟨pd, h1, h2, h3, h4⟩ := padded_unitsBelow cfg hlen
  rw [hpad] at h1
  cases h1
  refine ⟨?_, h4⟩
  rw [unsealFile_eq cfg]
  rw [sealFile_eq cfg] at hseal
  exact unsealFrom_sealPrefix hH cfg (Or.inl hL) (by omega) h3 (Nat.le_refl n) hseal hlog

/-! ### C02: sealing does not crash -/

/-- Sealing with hash-chosen dependencies succeeds on every file of residues with at most
65536 blocks of at most 65536 units, and produces one identifier per block. -/
theorem C02_seal_total (H : Bytes → Bytes) (hH : ∀ x, (H x).length = 32) (params : PosPara)
    (p n c : Nat) (cfg : Config params p n c) (hL : params.modeL = 0) (hS : params.modeS = 0)
    (hn : LongCountOk n params.cntL) (hc : ShortCountOk c params.cntS) (file iv : Bytes) (hlen : n * params.blockPl ≤ file.length)
    (hu : UnitsBelow params p n c file) :
    ∃ st, sealFile H params file (p : Int) iv = .ok st ∧ st.file.length = file.length ∧
      st.ids.length = n ∧ ∀ id ∈ st.ids, id.length = 32 := by
  have hl : idxsLOf params n = .ok [] := by
    unfold idxsLOf; rw [if_neg (by simp [hL])]; rfl
  have hs : idxsSOf params n = .ok [] := by
    unfold idxsSOf; rw [if_neg (by simp [hS])]; rfl
  obtain ⟨t, ht, hinv⟩ := sealLoop_ok hH cfg.keyOk cfg.layout hS hL hn hc (iv := iv) (idxsL := [])
    (idxsSOf_shortOk hs) hlen (sealInv_zero (H := H) (fun i hi => hu.blockOk cfg.layout hi))
  refine ⟨t, ?_, hinv.len, hinv.ids_len, ?_⟩
  · rw [sealFile_eq cfg]
    unfold sealPrefix
    rw [cfg.div, bind_ok, hl, bind_ok, hs, bind_ok]
    exact ht
  · intro id hid
    obtain ⟨j, hj, rfl⟩ := List.getElem_of_mem hid
    have hjn : j < n := by rw [hinv.ids_len] at hj; exact hj
    have := hinv.ids j hjn
    rw [List.getElem?_eq_getElem hj] at this
    rw [Option.some.inj this]
    exact hH _

/-- The relations of a shipped configuration, for a fitting modulus. -/
theorem genPosdata_config (l p : Nat) (hp : p.Prime) (h34 : p % 4 = 3) (h1 : 256 ^ 63 ≤ p) (h2 : p ≤ 256 ^ 64) :
    ∃ c ≤ 4096, Config (genPosdata l) p 256 c ∧ (genPosdata l).modeL = 0 ∧ (genPosdata l).modeS = 0 := by
  have h3 : 256 ^ 32 ≤ p := le_trans (Nat.pow_le_pow_right (by norm_num) (by norm_num)) h1
  unfold genPosdata
  split
  · exact ⟨64, by norm_num, ⟨by norm_num, by norm_num, by norm_num, by norm_num, by norm_num, by norm_num,
      hp, h34, h1, h3, h2⟩, rfl, rfl⟩
  · split
    · exact ⟨256, by norm_num, ⟨by norm_num, by norm_num, by norm_num, by norm_num, by norm_num, by norm_num,
        hp, h34, h1, h3, h2⟩, rfl, rfl⟩
    · split
      · exact ⟨1024, by norm_num, ⟨by norm_num, by norm_num, by norm_num, by norm_num, by norm_num, by norm_num,
          hp, h34, h1, h3, h2⟩, rfl, rfl⟩
      · exact ⟨4096, by norm_num, ⟨by norm_num, by norm_num, by norm_num, by norm_num, by norm_num, by norm_num,
          hp, h34, h1, h3, h2⟩, rfl, rfl⟩

/-- Every shipped parameter set with every prime of matching size. -/
theorem C02_shipped (H : Bytes → Bytes) (hH : ∀ x, (H x).length = 32) (l p : Nat) (hp : p.Prime)
    (h34 : p % 4 = 3) (h1 : 256 ^ 63 ≤ p) (h2 : p ≤ 256 ^ 64) (origin iv : Bytes)
    (hlen : origin.length = (genPosdata l).dataL) :
    ∃ padded st, copyAndPad origin (genPosdata l).dataL (genPosdata l).unitL = .ok padded ∧
      sealFile H (genPosdata l) padded (p : Int) iv = .ok st ∧ st.file.length = padded.length ∧
      st.ids.length = 256 ∧ ∀ id ∈ st.ids, id.length = 32 := by
  obtain ⟨c, hc, cfg, hL, hS⟩ := genPosdata_config l p hp h34 h1 h2
  obtain ⟨padded, g1, g2, g3, -⟩ := padded_unitsBelow cfg hlen
  obtain ⟨st, s1, s2, s3, s4⟩ := C02_seal_total H hH _ p 256 c cfg hL hS (by omega) (by omega) padded iv
    (by omega) g3
  exact ⟨padded, st, g1, s1, s2, s3, s4⟩

/-- Every shipped parameter set with the shipped 512-bit modulus: no assumption about the
modulus is left. -/
theorem C02_shipped_P512 (H : Bytes → Bytes) (hH : ∀ x, (H x).length = 32) (l : Nat) (origin iv : Bytes)
    (hlen : origin.length = (genPosdata l).dataL) :
    ∃ padded st, copyAndPad origin (genPosdata l).dataL (genPosdata l).unitL = .ok padded ∧
      sealFile H (genPosdata l) padded P_512 iv = .ok st ∧ st.file.length = padded.length ∧
      st.ids.length = 256 ∧ ∀ id ∈ st.ids, id.length = 32 :=
  C02_shipped H hH l _ prime_P_512 (by norm_num) (by norm_num) (by norm_num) origin iv hlen

/-- C01 for the shipped configurations: pad, seal, unseal, compress is the identity
whenever no encoder input was zero; nothing crashes in any case. -/
theorem C01_shipped (H : Bytes → Bytes) (hH : ∀ x, (H x).length = 32) (l : Nat) (origin iv padded : Bytes)
    (hlen : origin.length = (genPosdata l).dataL)
    (hpad : copyAndPad origin (genPosdata l).dataL (genPosdata l).unitL = .ok padded)
    (hz : NoZeroInput H (genPosdata l) padded P_512 iv) :
    storeAndRetrieve H (genPosdata l) origin P_512 iv = .ok origin := by
  obtain ⟨c, hc, cfg, hL, hS⟩ := genPosdata_config l _ prime_P_512 (by norm_num) (by norm_num) (by norm_num)
  obtain ⟨pd, st, g1, g2, -⟩ := C02_shipped_P512 H hH l origin iv hlen
  rw [hpad] at g1
  cases g1
  obtain ⟨r1, r2⟩ := C01_round_trip H hH _ _ 256 c cfg hL origin hlen iv padded st hpad g2 (hz st g2)
  unfold storeAndRetrieve
  rw [hpad, bind_ok, g2, bind_ok]
  have r1' : unsealFile H (genPosdata l) st.file P_512 iv = .ok padded := r1
  rw [r1', bind_ok]
  exact r2

set_option maxRecDepth 100000 in
/-- The hypotheses of C01 are met by a concrete run (two blocks of two units, two sealing
rounds, the shipped 512-bit modulus): sealing succeeds and no encoder input is zero. -/
example : ∃ padded st, copyAndPad (toyFile 252) 252 63 = .ok padded ∧
    sealFile toyHash (toyParams 2 2 0 0 0 10 2) padded P_512 [1, 2, 3] = .ok st ∧
    (∀ v ∈ st.log, v ≠ 0) ∧ st.log.length = 8 ∧ st.file ≠ padded := by
  have h : (match copyAndPad (toyFile 252) 252 63 with
    | .ok padded => (match sealFile toyHash (toyParams 2 2 0 0 0 10 2) padded P_512 [1, 2, 3] with
      | .ok st => decide ((∀ v ∈ st.log, v ≠ 0) ∧ st.log.length = 8 ∧ st.file ≠ padded)
      | .error _ => false)
    | .error _ => false) = true := by decide +kernel
  split at h
  · next padded hp =>
    split at h
    · next st hs => exact ⟨padded, st, hp, hs, of_decide_eq_true h⟩
    · cases h
  · cases h

/-! ### C07: crash points -/

/-- If sealing stops after `k` blocks: the first `k` blocks are final, the rest is
untouched, and undoing exactly `k` blocks restores the file. -/
theorem C07_crash_point (H : Bytes → Bytes) (hH : ∀ x, (H x).length = 32) (params : PosPara)
    (p n c : Nat) (cfg : Config params p n c) (file iv : Bytes) (hlen : n * params.blockPl ≤ file.length)
    (hu : UnitsBelow params p n c file) (k : Nat) (hk : k ≤ n) (st t : SealState)
    (hpre : sealPrefix H params file (p : Int) iv k = .ok st)
    (hfull : sealFile H params file (p : Int) iv = .ok t) :
    (∀ i < k * params.blockPl, st.file[i]? = t.file[i]?) ∧
    (∀ i, k * params.blockPl ≤ i → st.file[i]? = file[i]?) ∧
    (params.modeL = 0 → (∀ v ∈ st.log, v ≠ 0) → unsealFrom H params st.file (p : Int) iv k = .ok file) := by
  refine ⟨?_, ?_, fun hL hlog => unsealFrom_sealPrefix hH cfg (Or.inl hL) hlen hu hk hpre hlog⟩
  · obtain ⟨iL, iS, hl, hs, hrun⟩ := sealPrefix_eq cfg hpre
    rw [sealFile_eq cfg] at hfull
    obtain ⟨iL', iS', hl', hs', hrun'⟩ := sealPrefix_eq cfg hfull
    rw [hl] at hl'; rw [hs] at hs'
    cases hl'; cases hs'
    have h0 : SealInv H params p n c file 0 { file := file, ids := List.replicate n [], log := [] } :=
      sealInv_zero (fun i hi => hu.blockOk cfg.layout hi)
    obtain ⟨-, -, htr⟩ := seal_trace hH cfg.keyOk cfg.layout (idxsSOf_shortOk hs) hlen h0 (Nat.le_refl n) hrun'
    intro i hi
    cases k with
    | zero => simp at hi
    | succ k =>
      obtain ⟨s, s', -, -, -, -, h5, h6⟩ := htr k (by omega)
      rw [hrun] at h5
      cases h5
      exact (h6 i hi).symm
  · obtain ⟨iL, iS, hl, hs, hrun⟩ := sealPrefix_eq cfg hpre
    have h0 : SealInv H params p n c file 0 { file := file, ids := List.replicate n [], log := [] } :=
      sealInv_zero (fun i hi => hu.blockOk cfg.layout hi)
    exact (seal_trace hH cfg.keyOk cfg.layout (idxsSOf_shortOk hs) hlen h0 hk hrun).1.tail

set_option maxRecDepth 100000 in
/-- A crash after one of three blocks, in a file with five bytes to spare: the whole run and the
interrupted run both succeed, block 0 is sealed, block 1 is not, no encoder input was zero. -/
example : (match copyAndPad (toyFile 189) 189 63 with
    | .ok padded => (match sealPrefix toyHash (toyParams 3 1 0 0 1 1 2) (padded ++ [1, 2, 3, 4, 5]) P_512 [1, 2, 3] 1,
        sealFile toyHash (toyParams 3 1 0 0 1 1 2) (padded ++ [1, 2, 3, 4, 5]) P_512 [1, 2, 3] with
      | .ok st, .ok t => decide ((∀ v ∈ st.log, v ≠ 0) ∧ st.log.length = 2 ∧ t.log.length = 6 ∧
          st.file.take 64 = t.file.take 64 ∧ st.file.take 64 ≠ padded.take 64 ∧
          st.file.drop 64 = padded.drop 64 ++ [1, 2, 3, 4, 5] ∧ t.file.drop 192 = [1, 2, 3, 4, 5] ∧
          unsealFrom toyHash (toyParams 3 1 0 0 1 1 2) st.file P_512 [1, 2, 3] 1 = .ok (padded ++ [1, 2, 3, 4, 5]))
      | _, _ => false)
    | .error _ => false) = true := by decide +kernel

/-! ### C08: file region -/

/-- Sealing one unit keeps the number of units and their length, whatever the units contain. -/
theorem sealUnit_lengths {H : Bytes → Bytes} {params : PosPara} {p : Nat} (hk : KeyOk p params.unitPl)
    {iv : Bytes} {idxsS : List (List Nat)} {ids : List Bytes} {deps : List (List Bytes)}
    {unitCnt idx2 idx1 : Nat} {s s' : List Bytes × List Nat} (hu : ∀ u ∈ s.1, u.length = params.unitPl)
    (h : sealUnit H params (p : Int) iv idxsS ids deps unitCnt idx2 idx1 s = .ok s') :
    (∀ u ∈ s'.1, u.length = params.unitPl) ∧ s'.1.length = s.1.length := by
  obtain ⟨cur, log⟩ := s
  simp only at hu
  unfold sealUnit at h
  simp only at h
  rw [bind_eq_ok] at h
  obtain ⟨dd, hdd, h⟩ := h
  rw [bind_eq_ok] at h
  obtain ⟨dd2, hdd2, h⟩ := h
  rw [bind_eq_ok] at h
  obtain ⟨u, hu1, h⟩ := h
  rw [bind_eq_ok] at h
  obtain ⟨r, hr, h⟩ := h
  rw [bind_eq_ok] at h
  obtain ⟨cur', hcur', h⟩ := h
  cases h
  obtain ⟨hlt, rfl⟩ := put!_eq_ok.mp hcur'
  have hp0 : 0 < p := hk.prime.pos
  have hfit : p ≤ 256 ^ u.length := by
    rw [hu u (List.mem_of_getElem? (at!_eq_ok.mp hu1))]; exact hk.fits
  obtain ⟨r', hr', -, hrv⟩ := modadd_spec (u := u) (h := H dd2) hp0 hfit
  rw [hr] at hr'
  cases hr'
  have hrp : leNat r < p := by rw [hrv]; exact Nat.mod_lt _ hp0
  have hvl := rug_vde_length hk.prime hk.mod4 (t := params.vdeRounds) (mode := params.vdeMode)
    hrp hk.fits
  refine ⟨fun v hv => ?_, by simp⟩
  rcases List.mem_or_eq_of_mem_set hv with h1 | h1
  · exact hu v h1
  · rw [h1]; exact hvl.1

/-- Sealing one block replaces exactly the bytes of that block, whatever the file contains. -/
theorem sealBlock_region {H : Bytes → Bytes} {params : PosPara} {p n c : Nat} (hk : KeyOk p params.unitPl)
    (hlay : Layout params n c) {iv : Bytes} {idxsL idxsS : List (List Nat)} {k : Nat} {s s' : SealState}
    (hlen : (k + 1) * params.blockPl ≤ s.file.length)
    (h : sealBlock H params (p : Int) iv n idxsL idxsS k s = .ok s') :
    s'.file.length = s.file.length ∧
      ∀ i, (i < k * params.blockPl ∨ (k + 1) * params.blockPl ≤ i) → s'.file[i]? = s.file[i]? := by
  obtain ⟨us, hus, husl, hul⟩ : ∃ us, toUnits (readFile s.file (k * params.blockPl) params.blockPl)
      params.unitPl = .ok us ∧ us.length = c ∧ ∀ u ∈ us, u.length = params.unitPl := by
    obtain ⟨us, h1, h2, h3, -⟩ := toUnits_ok (readFile s.file (k * params.blockPl) params.blockPl)
      params.unitPl c hlay.unit_pos (by rw [readFile_length, hlay.block])
    exact ⟨us, h1, h2, h3⟩
  unfold sealBlock at h
  simp only [hus, bind_ok] at h
  rw [bind_eq_ok] at h
  obtain ⟨deps, hdeps, h⟩ := h
  rw [bind_eq_ok] at h
  obtain ⟨r, hr, h⟩ := h
  rw [comUnits_eq, bind_ok, bind_eq_ok] at h
  obtain ⟨ids', hids', h⟩ := h
  cases h
  have hrounds : (∀ u ∈ r.1, u.length = params.unitPl) ∧ r.1.length = us.length := by
    unfold sealRoundsLoop at hr
    refine forUp_inv (fun _ (t : List Bytes × List Nat) => (∀ u ∈ t.1, u.length = params.unitPl) ∧
      t.1.length = us.length) ⟨hul, rfl⟩ ?_ hr
    intro j _ t t' ⟨h1, h2⟩ hf
    refine forUp_inv (fun _ (w : List Bytes × List Nat) => (∀ u ∈ w.1, u.length = params.unitPl) ∧
      w.1.length = us.length) ⟨h1, h2⟩ ?_ hf
    intro j' _ w w' ⟨g1, g2⟩ hg
    obtain ⟨e1, e2⟩ := sealUnit_lengths hk g1 hg
    exact ⟨e1, by omega⟩
  have hout : r.1.flatten.length = params.blockPl := by
    rw [flatten_length_const _ _ hrounds.1, hrounds.2, husl, hlay.block]
  rw [Nat.add_mul, Nat.one_mul] at hlen
  have hoff : k * params.blockPl + r.1.flatten.length ≤ s.file.length := by omega
  refine ⟨writeAt_length s.file r.1.flatten _ hoff, fun i hi => ?_⟩
  rw [writeAt_getElem? _ _ _ _ (by omega)]
  rw [Nat.add_mul, Nat.one_mul] at hi
  rw [hout, if_neg (by omega)]

/-- Sealing, for arbitrary file content (also one that was not padded) and every dependency mode,
keeps the length and never touches a byte beyond the configured blocks; block `k` is written exactly
into its own region and every other byte is left as it was. -/
theorem C08_seal_region (H : Bytes → Bytes) (params : PosPara)
    (p n c : Nat) (cfg : Config params p n c) (file iv : Bytes) (hlen : n * params.blockPl ≤ file.length) :
    (∀ st, sealFile H params file (p : Int) iv = .ok st →
      st.file.length = file.length ∧ ∀ i, n * params.blockPl ≤ i → st.file[i]? = file[i]?) ∧
    (∀ k < n, ∀ s s', sealPrefix H params file (p : Int) iv k = .ok s →
      sealPrefix H params file (p : Int) iv (k + 1) = .ok s' →
      ∀ i, (i < k * params.blockPl ∨ (k + 1) * params.blockPl ≤ i) → s'.file[i]? = s.file[i]?) := by
  have hrun : ∀ (iL iS : List (List Nat)) k, k ≤ n → ∀ s, forUp k (fun idx2 s => sealBlock H params (p : Int)
      iv n iL iS idx2 s) { file := file, ids := List.replicate n [], log := [] } = .ok s →
      s.file.length = file.length ∧ ∀ i, k * params.blockPl ≤ i → s.file[i]? = file[i]? := by
    intro iL iS k hk s hs
    refine forUp_inv (fun j (t : SealState) => t.file.length = file.length ∧
      ∀ i, j * params.blockPl ≤ i → t.file[i]? = file[i]?) ⟨rfl, fun _ _ => rfl⟩ ?_ hs
    intro j hj t t' ⟨h1, h2⟩ hf
    have hjb : (j + 1) * params.blockPl ≤ n * params.blockPl := Nat.mul_le_mul_right _ (by omega)
    obtain ⟨e1, e2⟩ := sealBlock_region cfg.keyOk cfg.layout (by omega) hf
    refine ⟨by omega, fun i hi => ?_⟩
    rw [e2 i (Or.inr hi), h2 i (by rw [Nat.add_mul] at hi; omega)]
  constructor
  · intro st hst
    rw [sealFile_eq cfg] at hst
    obtain ⟨iL, iS, hl, hs, hst⟩ := sealPrefix_eq cfg hst
    exact hrun iL iS n (Nat.le_refl n) st hst
  · intro k hk s s' hsk hsk' i hi
    obtain ⟨iL, iS, hl, hs, hr⟩ := sealPrefix_eq cfg hsk
    obtain ⟨iL', iS', hl', hs', hr'⟩ := sealPrefix_eq cfg hsk'
    rw [hl] at hl'; rw [hs] at hs'
    cases hl'; cases hs'
    have hjb : (k + 1) * params.blockPl ≤ n * params.blockPl := Nat.mul_le_mul_right _ (by omega)
    have h1 := (hrun iL iS k (by omega) s hr).1
    rw [forUp_succ, hr, bind_ok] at hr'
    exact (sealBlock_region cfg.keyOk cfg.layout (by omega) hr').2 i hi

/-- Unsealing, for arbitrary file content (also corrupted or never sealed) and every
dependency mode, keeps the length and never touches a byte beyond the configured blocks. -/
theorem C08_unseal_region (H : Bytes → Bytes) (hH : ∀ x, (H x).length = 32) (params : PosPara)
    (p n c : Nat) (cfg : Config params p n c) (file iv out : Bytes) (hlen : n * params.blockPl ≤ file.length)
    (h : unsealFile H params file (p : Int) iv = .ok out) :
    out.length = file.length ∧ ∀ i, n * params.blockPl ≤ i → out[i]? = file[i]? := by
  rw [unsealFile_eq cfg] at h
  have hd := h
  unfold unsealFrom at hd
  rw [cfg.div, bind_ok, bind_eq_ok] at hd
  obtain ⟨idxsL, hl, hd⟩ := hd
  rw [bind_eq_ok] at hd
  obtain ⟨idxsS, hs, hd⟩ := hd
  refine forUp_inv (fun _ (f : Bytes) => f.length = file.length ∧
    ∀ i, n * params.blockPl ≤ i → f[i]? = file[i]?) ⟨rfl, fun _ _ => rfl⟩ ?_ hd
  intro j hj f f' ⟨h1, h2⟩ hf
  rw [sub!_of_le (by omega), bind_ok, sub!_of_le (by omega), bind_ok] at hf
  obtain ⟨g1, g2⟩ := unsealBlock_region hH cfg.keyOk cfg.layout (k := n - 1 - j) (by omega) (by omega) hf
  refine ⟨by omega, ?_⟩
  intro i hi
  rw [g2 i (Or.inr ?_), h2 i hi]
  have : (n - 1 - j + 1) * params.blockPl ≤ n * params.blockPl := Nat.mul_le_mul_right _ (by omega)
  omega

/-! ### C57: unsealing never crashes -/

/-- Unsealing with hash-chosen dependencies succeeds on every file, whatever its length and
its content. -/
theorem C57_unseal_total (H : Bytes → Bytes) (hH : ∀ x, (H x).length = 32) (params : PosPara)
    (p n c : Nat) (cfg : Config params p n c) (hL : params.modeL = 0) (hS : params.modeS = 0)
    (hn : LongCountOk n params.cntL) (hc : ShortCountOk c params.cntS) (file iv : Bytes) :
    ∃ out, unsealFile H params file (p : Int) iv = .ok out := by
  have hl : idxsLOf params n = .ok [] := by
    unfold idxsLOf; rw [if_neg (by simp [hL])]; rfl
  have hs : idxsSOf params n = .ok [] := by
    unfold idxsSOf; rw [if_neg (by simp [hS])]; rfl
  rw [unsealFile_eq cfg, unsealFrom_eq cfg hl hs]
  obtain ⟨t, ht, -⟩ := forUp_total (n := n) (s := file) (f := fun j s => do
      let a ← sub! n 1
      let idx ← sub! a j
      unsealBlock H params (p : Int) iv n [] [] idx s) (fun _ _ => True) trivial (by
    intro j hj f _
    obtain ⟨f', hf'⟩ := unsealBlock_ok hH cfg.keyOk cfg.layout hS hL hn hc (iv := iv) (idxsL := [])
      (idxsS := []) (n - 1 - j) f
    refine ⟨f', ?_, trivial⟩
    rw [sub!_of_le (by omega), bind_ok, sub!_of_le (by omega), bind_ok]
    exact hf')
  exact ⟨t, ht⟩

/-- Unsealing a file that was never sealed and whose units are not even below the modulus. -/
example : (match unsealFile toyHash (toyParams 2 2 0 0 1 1 1) (List.replicate 256 255 ++ [9]) P_512 [1, 2, 3] with
    | .ok out => decide (out.length = 257 ∧ out.drop 256 = [9] ∧ out ≠ List.replicate 256 255 ++ [9])
    | .error _ => false) = true := by decide +kernel

/-! ### C10 at unit level: a zero encoder input destroys the unit -/

/-- If the masked value of a unit is zero, unsealing that unit succeeds but returns a
different block. -/
theorem C10_unit_lost (H : Bytes → Bytes) (hH : ∀ x, (H x).length = 32) (params : PosPara) (p n c : Nat)
    (cfg : Config params p n c) (ht : 0 < params.vdeRounds) (iv : Bytes) (idxsS : List (List Nat))
    (hs : ShortOk idxsS) (ids : List Bytes) (beforeId : Bytes) (deps : List (List Bytes))
    (unitCnt idx2 idx1 : Nat) (hb : idx2 ≠ 0 → ids[idx2 - 1]? = some beforeId)
    (s s' : List Bytes × List Nat) (hu : ∀ u ∈ s.1, u.length = params.unitPl ∧ leNat u < p)
    (h : sealUnit H params (p : Int) iv idxsS ids deps unitCnt idx2 idx1 s = .ok s')
    (hzero : s'.2 = s.2 ++ [0]) :
    ∃ b, unsealUnit H params (p : Int) iv idxsS beforeId deps unitCnt idx2 idx1 s'.1 = .ok b ∧ b ≠ s.1 := by
  have hk := cfg.keyOk
  have h3 : 3 < p := lt_of_lt_of_le (by norm_num) cfg.above_hash
  unfold sealUnit at h
  simp only [bind_eq_ok] at h
  obtain ⟨dd, hdd, dd', hdd', u, hu1, r, hr, cur, hcur, h⟩ := h
  cases h
  have hr0 : leNat r = 0 := by
    simp only at hzero
    have := List.append_cancel_left hzero
    simpa using this
  obtain ⟨hlt, rfl⟩ := put!_eq_ok.mp hcur
  have humem : u ∈ s.1 := List.mem_of_getElem? (at!_eq_ok.mp hu1)
  obtain ⟨hul, hup⟩ := hu u humem
  have hhash : leNat (H dd') < p := hash_le hH hk dd'
  obtain ⟨r', hr1, hr2, hr3⟩ := modadd_spec (u := u) (h := H dd') hk.prime.pos (by rw [hul]; exact hk.fits)
  rw [hr] at hr1
  cases hr1
  have hrl : r.length = params.unitPl := by rw [hr2, hul]
  have hdeq : (if idx1 = 0 then if idx2 = 0 then dd ++ iv else dd ++ beforeId else dd) = dd' := by
    split at hdd'
    · split at hdd'
      · cases hdd'; simp_all
      · next h1 h2 =>
        have hat : at! ids (idx2 - 1) = .ok beforeId := at!_eq_ok.mpr (hb h2)
        rw [hat, bind_ok] at hdd'
        cases hdd'; simp_all
    · cases hdd'; simp_all
  obtain ⟨hvl, hvlt⟩ := rug_vde_length hk.prime hk.mod4 (x := r) (t := params.vdeRounds)
    (mode := params.vdeMode) (l := params.unitPl) (by rw [hr0]; exact hk.prime.pos) hk.fits
  have hil := rug_vdeInv_length hk.prime hk.mod4 (t := params.vdeRounds) (mode := params.vdeMode) hvl hk.fits
  set v := Rug.vde r (p : Int) params.vdeRounds params.vdeMode params.unitPl with hv
  set w := Rug.vdeInv v (p : Int) params.vdeRounds params.vdeMode params.unitPl with hw
  obtain ⟨x, hx1, hx2, hx3⟩ := modsub_spec (u := w) (h := H dd') hk.prime.pos (by rw [hil]; exact hk.fits)
    (by omega)
  refine ⟨(s.1.set idx1 v).set idx1 x, ?_, ?_⟩
  · unfold unsealUnit
    rw [unsealDependData_eq, sealDependData_set hs, hdd, bind_ok]
    simp only [hdeq]
    rw [at!_of_lt (by simpa using hlt), bind_ok]
    simp only [List.getElem_set_self]
    rw [← hw, hx1, bind_ok, put!_of_lt (by simpa using hlt)]
  · intro heq
    have hxu : x = u := by
      have e1 : ((s.1.set idx1 v).set idx1 x)[idx1]? = some x := by
        rw [List.getElem?_set_self (by simpa using hlt)]
      rw [heq, at!_eq_ok.mp hu1] at e1
      exact (Option.some.inj e1).symm
    -- value of the decoded unit
    have hwval : leNat w = 4 ∨ leNat w = p - 4 := by
      have hz := rug_zero_round hk.prime hk.mod4 params.vdeRounds h3
      have hs0 := rug_sloth_zero hk.mod4 params.vdeRounds
      have hvval : leNat v = (Rug.sloth 0 (p : Int) params.vdeRounds).natAbs := by
        have hlt2 := rug_sloth_natAbs_lt hk.prime hk.mod4 params.vdeRounds 0 hk.prime.pos
        obtain ⟨y, k1, k2, k3⟩ := pad_spec (n := (Rug.sloth ((0 : Nat) : Int) (p : Int) params.vdeRounds).natAbs)
          (l := params.unitPl) (lt_of_lt_of_le hlt2 hk.fits)
        have : v = y := by
          rw [hv]
          unfold Rug.vde
          simp only [ite_self, hr0]
          exact k1
        rw [this, k3]; rfl
      have hwv : leNat w = (Rug.slothInv (leNat v : Int) (p : Int) params.vdeRounds).natAbs := by
        have hb : (Rug.slothInv (leNat v : Int) (p : Int) params.vdeRounds).natAbs < 256 ^ params.unitPl := by
          have hlt' : p < 256 ^ params.unitPl := by
            rcases Nat.lt_or_ge p (256 ^ params.unitPl) with h | h
            · exact h
            · exfalso
              have he : p = 256 ^ params.unitPl := le_antisymm hk.fits h
              have hm := hk.mod4
              rw [cfg.unit_pl, Nat.pow_succ] at he
              omega
          obtain ⟨m, hm⟩ : ∃ m, params.vdeRounds = m + 1 := ⟨params.vdeRounds - 1, by omega⟩
          rw [hm]
          exact lt_of_le_of_lt (rug_singleSlothInv_range _ hk.prime.pos) hlt'
        obtain ⟨y, k1, k2, k3⟩ := pad_spec hb
        have : w = y := by
          rw [hw]
          unfold Rug.vdeInv
          simp only [ite_self]
          exact k1
        rw [this, k3]
      by_cases h1 : params.vdeRounds = 1
      · left
        rw [hwv, hvval, h1]
        have hs1 : Rug.sloth 0 (p : Int) 1 = -1 := by
          have := hs0.2.1 h1
          rwa [h1] at this
        rw [hs1]
        show (Rug.singleSlothInv ((1 : Nat) : Int) (p : Int)).natAbs = 4
        have := rug_singleSlothInv_odd (p := p) 2 (by norm_num) (by omega) (by norm_num)
        rw [show ((2 - 1 : Nat) : Int) = ((1 : Nat) : Int) by norm_num] at this
        have hp4 : p ≠ 4 := by have := hk.mod4; omega
        rw [this, Int.natAbs_natCast, show 2 ^ 2 = 4 by norm_num, Nat.mod_eq_of_lt (by omega)]
      · right
        have hge : 2 ≤ params.vdeRounds := by omega
        have hpos : 0 ≤ Rug.sloth 0 (p : Int) params.vdeRounds := by
          rw [hs0.2.2 hge]
          obtain ⟨z, hz1, -⟩ := rug_sloth_round hk.prime hk.mod4 (params.vdeRounds - 2) 2 (by norm_num) (by omega)
          rw [show (2 : Int) = ((2 : Nat) : Int) from rfl, hz1]
          omega
        rw [hwv, hvval, Int.natAbs_of_nonneg hpos, hz.2 hge]
        omega
    rw [hxu] at hx3
    rw [hr0] at hr3
    have hmod : p ∣ leNat u + leNat (H dd') := Nat.dvd_of_mod_eq_zero hr3.symm
    -- u ≡ w - h and u ≡ -h give w ≡ 0
    have h5 : (leNat u + leNat (H dd')) % p = leNat w % p := by
      rw [hx3, Nat.mod_add_mod, show leNat w + p - leNat (H dd') + leNat (H dd') = leNat w + p by omega,
        Nat.add_mod_right]
    rw [Nat.mod_eq_zero_of_dvd hmod] at h5
    have hp4 : p ≠ 4 := by have := hk.mod4; omega
    rcases hwval with h | h
    · rw [h, Nat.mod_eq_of_lt (by omega)] at h5; omega
    · rw [h, Nat.mod_eq_of_lt (by omega)] at h5; omega

/-- A unit whose encoder input is zero: the unit is the modulus minus the digest of its mask. -/
example :
    let v := 10711734159436774894171334484137626675507759979749407253125221261168087448899876831488509454695461974257751111853456183382157282212990237184712394546309153
    let u : Bytes := (List.range 64).map (fun i => UInt8.ofNat (v / 256 ^ i % 256))
    v + leNat (toyHash [1, 2, 3]) = P_512 ∧
    (match sealUnit toyHash (toyParams 1 1 0 0 1 1 1) P_512 [1, 2, 3] [] [] [] 1 0 0 ([u], []) with
      | .ok s' => (match unsealUnit toyHash (toyParams 1 1 0 0 1 1 1) P_512 [1, 2, 3] [] [] [] 1 0 0 s'.1 with
        | .ok b => decide (s'.2 = [0] ∧ b ≠ [u])
        | .error _ => false)
      | .error _ => false) = true := by decide +kernel

/-! ### C29: static long dependencies -/

/-- Unsealing is the inverse of sealing also for static long dependencies when every static
list is the prefix `0, 1, 2, ...` of its length. -/
theorem C29_prefix_lists_ok (H : Bytes → Bytes) (hH : ∀ x, (H x).length = 32) (params : PosPara)
    (p n c : Nat) (cfg : Config params p n c)
    (hpre : ∀ i < n, ∀ l, longDepend i params.cntL params.modeL = .ok l → l = List.range l.length)
    (file iv : Bytes) (hlen : n * params.blockPl ≤ file.length) (hu : UnitsBelow params p n c file)
    (st : SealState) (hseal : sealFile H params file (p : Int) iv = .ok st) (hlog : ∀ v ∈ st.log, v ≠ 0) :
    unsealFile H params st.file (p : Int) iv = .ok file := by
  rw [unsealFile_eq cfg]
  rw [sealFile_eq cfg] at hseal
  refine unsealFrom_sealPrefix hH cfg (Or.inr ?_) hlen hu (Nat.le_refl n) hseal hlog
  intro t ht i l hl
  unfold idxsLOf at ht
  split at ht
  · obtain ⟨h1, h2⟩ := table_spec ht
    obtain ⟨hi, rfl⟩ := List.getElem?_eq_some_iff.mp hl
    exact hpre i (by omega) _ (h2 i hi)
  · cases ht
    simp at hl

set_option maxRecDepth 100000 in
/-- The claim of C01 fails for static long dependencies: a consistent configuration with
three one-unit blocks in mode 1, without zero encoder inputs, is not restored. -/
theorem C29_static_mode_wrong : ∃ (H : Bytes → Bytes) (params : PosPara) (p : Nat) (origin iv out : Bytes),
    (∀ x, (H x).length = 32) ∧ Config params p 3 1 ∧ params.modeL = 1 ∧ params.modeS = 0 ∧
    origin.length = params.dataL ∧
    (∀ padded, copyAndPad origin params.dataL params.unitL = .ok padded → NoZeroInput H params padded (p : Int) iv) ∧
    storeAndRetrieve H params origin (p : Int) iv = .ok out ∧ out ≠ origin := by
  have h : (match copyAndPad (toyFile 189) 189 63 with
    | .ok padded => (match sealFile toyHash (toyParams 3 1 1 0 1 10 1) padded P_512 [1, 2, 3] with
      | .ok st => decide (∀ v ∈ st.log, v ≠ 0) &&
        (match storeAndRetrieve toyHash (toyParams 3 1 1 0 1 10 1) (toyFile 189) P_512 [1, 2, 3] with
         | .ok out => decide (out ≠ toyFile 189)
         | .error _ => false)
      | .error _ => false)
    | .error _ => false) = true := by decide +kernel
  split at h
  · next padded hp =>
    split at h
    · next st hs =>
      rw [Bool.and_eq_true] at h
      obtain ⟨h1, h2⟩ := h
      split at h2
      · next out ho =>
        obtain ⟨p, hpP, cfg⟩ := toy_config 3 1 1 0 1 10 1 (by norm_num)
        refine ⟨toyHash, toyParams 3 1 1 0 1 10 1, p, toyFile 189, [1, 2, 3], out, toyHash_length, cfg, rfl, rfl,
          by decide, ?_, ?_, of_decide_eq_true h2⟩
        · intro pd hpd st' hst'
          have : pd = padded := Except.ok.inj (hpd.symm.trans hp)
          subst this
          rw [hpP, hs] at hst'
          cases hst'
          exact of_decide_eq_true h1
        · rw [hpP]; exact ho
      · cases h2
    · cases h
  · cases h

end PoS
