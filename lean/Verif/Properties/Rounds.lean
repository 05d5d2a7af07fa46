import Verif.Properties.Binding
import Verif.Properties.Detection

/-
C125: unsealing with another number of rounds than was used for sealing.
-/

namespace PoS

namespace Sealing

variable {S : Sealing} {dec : Nat → Nat} {deps : List (List Bytes)} {chain : Bytes}

theorem Inverse.rounds (inv : Inverse S dec) (r : Nat) : Inverse { S with rounds := r } dec :=
  ⟨inv.p_pos, inv.fits, inv.hash, inv.dec_lt, inv.enc_dec, inv.enc_lt, inv.dec_enc, inv.other⟩

/-- Unsealing `r` of the rounds of a sealed block leaves what sealing had reached before them. -/
theorem unseal_some (inv : Inverse S dec) {b : List Bytes} (hb : S.Canonical b) (hz : S.NoZeroEncoded deps chain b)
    {r : Nat} (hr : r ≤ S.rounds) :
    unsealOne { S with rounds := r } dec deps chain (S.sealOne deps chain b) =
      S.sealState deps chain b (S.rounds - r) 0 := by
  have hmem : ∀ m < S.rounds, ∀ i < S.c, S.encoderInput deps chain (S.sealState deps chain b m i) i ≠ 0 := by
    intro m hm i hi
    apply hz
    exact List.mem_flatMap.mpr ⟨m, List.mem_range.mpr hm, List.mem_map.mpr ⟨i, List.mem_range.mpr hi, rfl⟩⟩
  have h1 := (unsealOne_sealOne (S := { S with rounds := S.rounds - r }) (deps := deps) (chain := chain)
    (inv.rounds _) (b := b) hb (by
      intro v hv
      obtain ⟨m, hm, hv⟩ := List.mem_flatMap.mp hv
      obtain ⟨i, hi, rfl⟩ := List.mem_map.mp hv
      have hm : m < S.rounds - r := List.mem_range.mp hm
      exact hmem m (by omega) i (List.mem_range.mp hi))).1
  have hst : S.sealState deps chain b (S.rounds - r) 0 = sealOne { S with rounds := S.rounds - r } deps chain b := rfl
  have h2 := (unsealOne_sealOne (S := { S with rounds := r }) (deps := deps) (chain := chain)
    (inv.rounds _) (b := S.sealState deps chain b (S.rounds - r) 0) (by rw [hst]; exact h1) (by
      intro v hv
      obtain ⟨m, hm, hv⟩ := List.mem_flatMap.mp hv
      obtain ⟨i, hi, rfl⟩ := List.mem_map.mp hv
      have hm : m < r := List.mem_range.mp hm
      have := hmem (m + (S.rounds - r)) (by omega) i (List.mem_range.mp hi)
      have he : S.sealState deps chain b (m + (S.rounds - r)) i =
          sealState { S with rounds := r } deps chain (S.sealState deps chain b (S.rounds - r) 0) m i := by
        unfold sealState
        rw [Function.iterate_add_apply]
        rfl
      rw [he] at this
      exact this)).2
  have h3 : sealOne { S with rounds := r } deps chain (S.sealState deps chain b (S.rounds - r) 0) = S.sealOne deps chain b := by
    unfold sealOne sealState
    have : S.rounds = r + (S.rounds - r) := by omega
    conv_rhs => rw [this, Function.iterate_add_apply]
    rfl
  rw [h3] at h2
  exact h2

/-- Unsealing more rounds than were sealed goes on unsealing the plain block. -/
theorem unseal_more (inv : Inverse S dec) {b : List Bytes} (hb : S.Canonical b) (hz : S.NoZeroEncoded deps chain b)
    (r : Nat) :
    unsealOne { S with rounds := r + S.rounds } dec deps chain (S.sealOne deps chain b) =
      S.unsealState dec deps chain b r 0 := by
  have h := (unsealOne_sealOne inv hb hz).2
  have he : unsealOne { S with rounds := r + S.rounds } dec deps chain (S.sealOne deps chain b) =
      (fun b => (List.range S.c).reverse.foldl (S.unstepUnit dec deps chain) b)^[r]
        (S.unsealOne dec deps chain (S.sealOne deps chain b)) := by
    unfold unsealOne
    show (fun b => (List.range S.c).reverse.foldl (S.unstepUnit dec deps chain) b)^[r + S.rounds] _ = _
    rw [Function.iterate_add_apply]
  rw [he, h]
  rfl

end Sealing

/-- The blocks of a sealed file as lists of units, and what is needed to unseal them. -/
theorem sealed_block_facts {H : Bytes → Bytes} (hH : ∀ x, (H x).length = 32) {params : PosPara} {p n c : Nat}
    (cfg : Config params p n c) (hL : LongModeOk params n) (hS : ShortModeOk params n c) {file iv : Bytes}
    (hlen : n * params.blockPl ≤ file.length) (hu : UnitsBelow params p n c file) {S : Sealing}
    (hd : describes S H params p n c iv) {st : SealState} (h : sealFile H params file (p : Int) iv = .ok st)
    (hlog : ∀ v ∈ st.log, v ≠ 0) {k : Nat} (hk : k < n) :
    plainUnits params c st.file k = (S.sealedBlocks (plainUnits params c file) n).getD k [] ∧
    S.Canonical (plainUnits params c file k) ∧
    S.NoZeroEncoded (S.dependencies (S.sealedBlocks (plainUnits params c file) k) k)
      (S.chaining (S.sealedBlocks (plainUnits params c file) k) k) (plainUnits params c file k) := by
  have hcan := canonical_plain hu hd hk
  have hz := noZero_of_log hH cfg hL hS hlen hu hd h hlog hk
  have inv := inverse_of hH cfg iv (longOf H params n) n
  rw [← describes_sealingOf hd] at inv
  obtain ⟨s, a1, a2, -⟩ := C64_seal_exact H hH params p n c cfg hL hS file iv hlen hu S hd
  rw [h] at a1
  cases a1
  refine ⟨?_, hcan, hz⟩
  have hupl : 0 < params.unitPl := by rw [cfg.unit_pl]; omega
  refine plainUnits_of_flatten cfg.layout hupl (fun u hu' => ?_) (a2 k hk)
  have hc := (Sealing.unsealOne_sealOne inv hcan hz).1
  rw [sealedBlocks_last S _ hk] at hu'
  rw [← hd.2.2.2.1]
  exact (hc.2 u hu').1

/-- Unsealing a sealed file with another number of rounds.  With fewer rounds every block is left as it was
after the remaining rounds of its sealing; with more, it is unsealed further, with the dependencies
and the chaining value of the sealed file.  Nothing panics. -/
theorem C125_rounds (H : Bytes → Bytes) (hH : ∀ x, (H x).length = 32) (params : PosPara)
    (p n c : Nat) (cfg : Config params p n c) (hmode : params.modeL = 0) (hn : LongCountOk n params.cntL)
    (hS : ShortModeOk params n c) (file iv : Bytes) (hlen : n * params.blockPl ≤ file.length)
    (hu : UnitsBelow params p n c file) (S : Sealing) (hd : describes S H params p n c iv)
    (plain : Nat → List Bytes)
    (hplain : plain = fun k => (List.range c).map (fun j => readFile file ((k * c + j) * params.unitPl) params.unitPl))
    (st : SealState) (h : sealFile H params file (p : Int) iv = .ok st) (hlog : ∀ v ∈ st.log, v ≠ 0) (r : Nat) :
    ∃ out, unsealFile H { params with sealRounds := r } st.file (p : Int) iv = .ok out ∧ out.length = file.length ∧
      (∀ i, n * params.blockPl ≤ i → out[i]? = file[i]?) ∧
      ∀ k < n, readFile out (k * params.blockPl) params.blockPl =
        (if r ≤ params.sealRounds then
          S.sealState (S.dependencies (S.sealedBlocks plain k) k) (S.chaining (S.sealedBlocks plain k) k) (plain k)
            (params.sealRounds - r) 0
        else S.unsealState ((undelay p)^[params.vdeRounds]) (S.dependencies (S.sealedBlocks plain k) k)
          (S.chaining (S.sealedBlocks plain k) k) (plain k) (r - params.sealRounds) 0).flatten := by
  have hL : LongModeOk params n := ⟨fun _ => hn, fun h => by omega, fun h => by omega⟩
  have hplain : plain = plainUnits params c file := hplain
  have cfg' : Config { params with sealRounds := r } p n c := ⟨cfg.unit_pos, cfg.unit_pl, cfg.c_pos, cfg.block, cfg.block_pl,
    cfg.data, cfg.prime, cfg.mod4, cfg.above_units, cfg.above_hash, cfg.fits⟩
  have hlo : longOf H params n = hashLong H n params.cntL := by unfold longOf; rw [if_pos hmode]
  have huo : unsealLongOf H { params with sealRounds := r } n = hashLong H n params.cntL := by
    unfold unsealLongOf; rw [if_pos hmode]
  obtain ⟨s, a1, a2, -, a4, a5⟩ := C64_seal_exact H hH params p n c cfg hL hS file iv hlen hu S hd
  rw [h] at a1
  cases a1
  have inv := inverse_of hH cfg iv (longOf H params n) n
  rw [← describes_sealingOf hd] at inv
  have hr : S.rounds = params.sealRounds := hd.2.2.2.2.2.1
  obtain ⟨out, e1, e2, e3, e4⟩ := C79_unseal_exact H hH { params with sealRounds := r } p n c cfg' hL hS st.file iv
    (by show n * params.blockPl ≤ _; omega) { S with rounds := r } (by
    obtain ⟨d1, d2, d3, d4, d5, d6, d7, d8, d9⟩ := hd
    exact ⟨d1, d3, d4, d5, rfl, d7, by rw [huo, ← hlo]; exact d8, d9⟩)
  refine ⟨out, e1, by omega, fun i hi => (e4 i hi).trans (a5 i hi), fun k hk => ?_⟩
  have U := fun k (hk : k < n) => sealed_block_facts hH cfg hL hS hlen hu hd h hlog hk
  rw [← hplain] at U
  refine (e2 k hk).trans ?_
  congr 1
  obtain ⟨u1, u2, u3⟩ := U k hk
  show Sealing.unsealedBlock { S with rounds := r } ((undelay p)^[params.vdeRounds]) (plainUnits params c st.file) k = _
  unfold Sealing.unsealedBlock
  simp only []
  have hlg : S.long = hashLong H n params.cntL := by rw [hd.2.2.2.2.2.2.2.1, hlo]
  -- the dependencies and the chaining value of the sealed file
  have hprev : k ≠ 0 → plainUnits params c st.file (k - 1) = (S.sealedBlocks plain k).getD (k - 1) [] := by
    intro hk0
    rw [(U (k - 1) (by omega)).1, sealedBlocks_getD S plain (by omega : k - 1 < k) hk.le]
  have hdep : (S.long (S.H (plainUnits params c st.file (k - 1)).flatten) k).map (plainUnits params c st.file) =
      S.dependencies (S.sealedBlocks plain k) k := by
    unfold Sealing.dependencies
    by_cases hk0 : k = 0
    · subst hk0
      rw [hlg]
      unfold hashLong
      rfl
    · rw [hprev hk0]
      apply List.map_congr_left
      intro i hi
      have hik : i < k := by
        rw [hlg] at hi
        unfold hashLong at hi
        rw [if_neg hk0] at hi
        have hi := (Finset.mem_sort _).mp hi
        have hi := List.mem_of_mem_take (List.mem_toFinset.mp hi)
        obtain ⟨a, -, rfl⟩ := List.mem_map.mp hi
        exact Nat.mod_lt _ (by omega)
      rw [(U i (by omega)).1, sealedBlocks_getD S plain hik hk.le]
  have hch : (if k = 0 then S.iv else S.H (plainUnits params c st.file (k - 1)).flatten) =
      S.chaining (S.sealedBlocks plain k) k := by
    unfold Sealing.chaining
    by_cases hk0 : k = 0
    · rw [if_pos hk0, if_pos hk0]
    · rw [if_neg hk0, if_neg hk0, hprev hk0]
  rw [hdep, hch, u1, sealedBlocks_last S plain hk]
  by_cases hle : r ≤ params.sealRounds
  · rw [if_pos hle, Sealing.unseal_some inv u2 u3 (by rw [hr]; exact hle), hr]
  · rw [if_neg hle, ← Sealing.unseal_more inv u2 u3 (r - params.sealRounds), hr]
    rw [show r - params.sealRounds + params.sealRounds = r by omega]

/-- The first block of a file from which `r` of the rounds have been undone is the first block of the file sealed
with the remaining rounds. -/
theorem C125_first_block (H : Bytes → Bytes) (hH : ∀ x, (H x).length = 32) (params : PosPara)
    (p n c : Nat) (cfg : Config params p n c) (hmode : params.modeL = 0) (hn : LongCountOk n params.cntL) (hpos : 0 < n)
    (hS : ShortModeOk params n c) (file iv : Bytes) (hlen : n * params.blockPl ≤ file.length)
    (hu : UnitsBelow params p n c file) (st : SealState) (h : sealFile H params file (p : Int) iv = .ok st)
    (hlog : ∀ v ∈ st.log, v ≠ 0) (r : Nat) (hr : r ≤ params.sealRounds) :
    ∃ out st', unsealFile H { params with sealRounds := r } st.file (p : Int) iv = .ok out ∧
      sealFile H { params with sealRounds := params.sealRounds - r } file (p : Int) iv = .ok st' ∧
      readFile out 0 params.blockPl = readFile st'.file 0 params.blockPl := by
  have hL : LongModeOk params n := ⟨fun _ => hn, fun h => by omega, fun h => by omega⟩
  have hd : describes (sealingOf H params p c iv (longOf H params n) (shortOf H params n c)) H params p n c iv :=
    ⟨rfl, rfl, rfl, rfl, rfl, rfl, rfl, rfl, rfl⟩
  have hd' : describes { sealingOf H params p c iv (longOf H params n) (shortOf H params n c) with
      rounds := params.sealRounds - r } H { params with sealRounds := params.sealRounds - r } p n c iv :=
    ⟨rfl, rfl, rfl, rfl, rfl, rfl, rfl, rfl, rfl⟩
  have cfg' : Config { params with sealRounds := params.sealRounds - r } p n c := ⟨cfg.unit_pos, cfg.unit_pl, cfg.c_pos,
    cfg.block, cfg.block_pl, cfg.data, cfg.prime, cfg.mod4, cfg.above_units, cfg.above_hash, cfg.fits⟩
  obtain ⟨out, e1, -, -, e4⟩ := C125_rounds H hH params p n c cfg hmode hn hS file iv hlen hu _ hd _ rfl st h hlog r
  obtain ⟨st', a1, a2, -⟩ := C64_seal_exact H hH { params with sealRounds := params.sealRounds - r } p n c cfg' hL hS file iv
    hlen hu _ hd'
  refine ⟨out, st', e1, a1, ?_⟩
  have x := e4 0 hpos
  have y := a2 0 hpos
  rw [sealedBlocks_last _ _ hpos] at y
  rw [if_pos hr, Nat.zero_mul] at x
  rw [Nat.zero_mul] at y
  rw [x]
  exact y.symm

/-- The block that unsealing with `r` rounds makes of block `k` of the plain blocks, sealed as `S` describes. -/
def Sealing.reopened (S : Sealing) (dec : Nat → Nat) (plain : Nat → List Bytes) (r k : Nat) : List Bytes :=
  if r ≤ S.rounds then
    S.sealState (S.dependencies (S.sealedBlocks plain k) k) (S.chaining (S.sealedBlocks plain k) k) (plain k) (S.rounds - r) 0
  else S.unsealState dec (S.dependencies (S.sealedBlocks plain k) k) (S.chaining (S.sealedBlocks plain k) k) (plain k)
    (r - S.rounds) 0

/-- A prover who has sealed with another number of rounds than the verifier expects (fewer, to save time, or
none: the padded file itself) always gets an answer together, and is accepted exactly if for every challenged block
the units it is unsealed to begin with the bytes of the original; sequentially, and in parallel under every
complete schedule. -/
theorem C125_verdict (H Hs : Bytes → Bytes) (hH : ∀ x, (H x).length = 32) (hHs : ∀ x, (Hs x).length = 32)
    (params : PosPara) (p n c : Nat) (cfg : Config params p n c) (hmode : params.modeL = 0) (hS : ShortModeOk params n c)
    (hn : LongCountOk n params.cntL) (origin padded pubdata iv : Bytes) (hload : loadData pubdata = .ok ((p : Int), iv))
    (hlen : origin.length = params.dataL) (hpad : copyAndPad origin params.dataL params.unitL = .ok padded)
    (S : Sealing) (hd : describes S H params p n c iv) (plain : Nat → List Bytes)
    (hplain : plain = fun k => (List.range c).map (fun j => readFile padded ((k * c + j) * params.unitPl) params.unitPl))
    (st : SealState) (h : sealFile H params padded (p : Int) iv = .ok st) (hlog : ∀ v ∈ st.log, v ≠ 0)
    (leaves : List Bytes) (tree : MerkleTree) (root : Bytes)
    (hm : generateMerkleTreeFromData Hs st.ids = .ok (leaves, tree, root)) (rounds : Nat)
    (r : UInt8) (indices : List Nat) (hs : indices.Pairwise (· < ·)) (hne : indices ≠ []) (hlt : ∀ k ∈ indices, k < n) :
    ∃ resp, proverRespond H params st.file tree r indices = .ok resp ∧
      (verifierCheck H Hs { params with sealRounds := rounds } origin pubdata leaves root r indices resp 0 [] = .ok (some ()) ↔
        ∀ k ∈ indices, ∀ j < c, ((S.reopened ((undelay p)^[params.vdeRounds]) plain rounds k).getD j []).take params.unitL =
          readFile origin (k * params.blockL + j * params.unitL) params.unitL) ∧
      ∀ workers sched outs, 0 < workers →
        batchUnsealParallel H { params with sealRounds := rounds } indices resp.blocks resp.beforeIds resp.dependBlocks
          (p : Int) iv workers sched = .ok (some outs) →
        (verifierCheck H Hs { params with sealRounds := rounds } origin pubdata leaves root r indices resp workers sched =
            .ok (some ()) ↔
          ∀ k ∈ indices, ∀ j < c, ((S.reopened ((undelay p)^[params.vdeRounds]) plain rounds k).getD j []).take params.unitL =
            readFile origin (k * params.blockL + j * params.unitL) params.unitL) := by
  have hL : LongModeOk params n := ⟨fun _ => hn, fun h => by omega, fun h => by omega⟩
  have cfg' : Config { params with sealRounds := rounds } p n c := ⟨cfg.unit_pos, cfg.unit_pl, cfg.c_pos,
    cfg.block, cfg.block_pl, cfg.data, cfg.prime, cfg.mod4, cfg.above_units, cfg.above_hash, cfg.fits⟩
  obtain ⟨pd, g1, g2, g3, -⟩ := padded_unitsBelow cfg hlen
  rw [hpad] at g1
  cases g1
  obtain ⟨s, a1, -, a3, a4, -⟩ := C64_seal_exact H hH params p n c cfg hL hS padded iv (by omega) g3 S hd
  rw [h] at a1
  cases a1
  obtain ⟨out, e1, e2, -, e4⟩ := C125_rounds H hH params p n c cfg hmode hn hS padded iv (by omega) g3 S hd plain hplain st h
    hlog rounds
  obtain ⟨out', pl, f1, f2, -, f4⟩ := C91_any_file H Hs hH hHs { params with sealRounds := rounds } p n c cfg' hmode hS hn origin
    pubdata iv hload st.ids (by rw [a3]; simp) leaves tree root hm st.file (by show n * params.blockPl ≤ _; omega)
  rw [e1] at f1
  cases f1
  obtain ⟨resp, r1, r2, r3⟩ := f4 r indices hs hne hlt
  have hr : S.rounds = params.sealRounds := hd.2.2.2.2.2.1
  have key : (∀ k ∈ indices, Restored { params with sealRounds := rounds } origin pl k) ↔
      ∀ k ∈ indices, ∀ j < c, ((S.reopened ((undelay p)^[params.vdeRounds]) plain rounds k).getD j []).take params.unitL =
        readFile origin (k * params.blockL + j * params.unitL) params.unitL := by
    refine forall_congr' fun k => forall_congr' fun hk => ?_
    have hk := hlt k hk
    have hdl : params.dataL = (n * c) * params.unitL := by rw [cfg.data, cfg.block, Nat.mul_assoc]
    have hcomp := C15_compress_any out (n * c) params.unitL params.unitPl cfg.unit_pos (by rw [cfg.unit_pl]; omega)
    rw [← hdl] at hcomp
    have f2 : copyAndCompress out params.dataL params.unitL params.unitPl = .ok pl := f2
    rw [hcomp] at f2
    have f2 := Except.ok.inj f2
    have hul : ∀ u ∈ (List.range (n * c)).map (fun i => readFile out (i * params.unitPl) params.unitL),
        u.length = params.unitL := by
      intro u hu
      obtain ⟨i, -, rfl⟩ := List.mem_map.mp hu
      exact readFile_length _ _ _
    have inv := inverse_of hH cfg iv (longOf H params n) n
    rw [← describes_sealingOf hd] at inv
    obtain ⟨-, u2, u3⟩ := sealed_block_facts hH cfg hL hS (by omega) g3 hd h hlog hk
    have hpl : plain = plainUnits params c padded := hplain
    rw [← hpl] at u2 u3
    -- the block is made of units
    have hcan : S.Canonical (S.reopened ((undelay p)^[params.vdeRounds]) plain rounds k) := by
      unfold Sealing.reopened
      by_cases hle : rounds ≤ S.rounds
      · rw [if_pos hle, ← Sealing.unseal_some inv u2 u3 hle]
        exact Sealing.canonical_unseal (S := S) inv (Sealing.unsealOne_sealOne inv u2 u3).1 rounds
      · rw [if_neg hle]
        exact Sealing.canonical_unseal (S := S) inv u2 _
    have hblk : plainUnits params c out k = S.reopened ((undelay p)^[params.vdeRounds]) plain rounds k := by
      have hupl : 0 < params.unitPl := by rw [cfg.unit_pl]; omega
      refine plainUnits_of_flatten cfg.layout hupl (fun u hu' => ?_) ((e4 k hk).trans ?_)
      · rw [← hd.2.2.2.1]
        exact (hcan.2 u hu').1
      · unfold Sealing.reopened
        rw [hr]
    show readFile pl (k * params.blockL) params.blockL = readFile origin (k * params.blockL) params.blockL ↔ _
    rw [cfg.block, readFile_units_iff]
    refine forall_congr' fun j => forall_congr' fun hj => ?_
    have hlt : k * c + j < n * c := by
      have : (k + 1) * c ≤ n * c := Nat.mul_le_mul_right _ hk
      rw [Nat.add_mul] at this
      omega
    have h1 := flatten_drop_take ((List.range (n * c)).map (fun i => readFile out (i * params.unitPl) params.unitL))
      params.unitL (k * c + j) (by simpa using hlt) hul []
    rw [List.append_nil, List.getElem_map, List.getElem_range] at h1
    rw [show k * (c * params.unitL) + j * params.unitL = (k * c + j) * params.unitL by
      rw [Nat.add_mul, Nat.mul_assoc], ← f2, h1, ← hblk]
    have h2 : (plainUnits params c out k).getD j [] = readFile out ((k * c + j) * params.unitPl) params.unitPl := by
      unfold plainUnits
      rw [List.getD_eq_getElem?_getD, List.getElem?_map, List.getElem?_range hj]
      rfl
    have h3 : (readFile out ((k * c + j) * params.unitPl) params.unitPl).take params.unitL =
        readFile out ((k * c + j) * params.unitPl) params.unitL := by
      apply List.ext_getElem?
      intro i
      rw [List.getElem?_take, readFile_getElem?, readFile_getElem?, cfg.unit_pl]
      by_cases hi : i < params.unitL
      · rw [if_pos hi, if_pos hi, if_pos (by omega)]
      · rw [if_neg hi, if_neg hi]
    rw [h2, h3]
  rw [key] at r2
  refine ⟨resp, r1, r2, fun workers sched outs hw ho => ?_⟩
  rw [← key]
  exact r3 workers sched outs hw ho

/-- Meets the hypotheses: a verifier who expects two rounds rejects the answers of a prover who sealed once, and of
one who did not seal at all. -/
example : (match copyAndPad (toyFile 126) 126 63 with
    | .ok padded => [0, 1, 2].map (fun rounds => match sealFile toyHash (toyParams 2 1 0 0 1 1 rounds) padded P_512 [1, 2, 3] with
      | .ok st => (match generateMerkleTreeFromData toyHash st.ids with
        | .ok (leaves, tree, root) => (match proverRespond toyHash (toyParams 2 1 0 0 1 1 rounds) st.file tree 7 [1] with
          | .ok resp => decide ((∀ v ∈ st.log, v ≠ 0) ∧ verifierCheck toyHash toyHash (toyParams 2 1 0 0 1 1 2) (toyFile 126)
                (saveData (zeros 300) P_512 [1, 2, 3]) leaves root 7 [1] resp 0 [] = .ok (some ()))
          | .error _ => false)
        | .error _ => false)
      | .error _ => false)
    | .error _ => []) = [false, false, true] := by decide +kernel

/-- Meets the hypotheses: two sealed blocks, from which one of the two rounds is undone.  The first block is the
one of the file sealed once, the second is not: it was sealed behind another first block. -/
example : (match sealFile toyHash (toyParams 2 1 0 0 1 1 2) (List.replicate 63 1 ++ [0] ++ List.replicate 63 2 ++ [0]) P_512 [1, 2, 3],
      sealFile toyHash (toyParams 2 1 0 0 1 1 1) (List.replicate 63 1 ++ [0] ++ List.replicate 63 2 ++ [0]) P_512 [1, 2, 3] with
    | .ok st, .ok st' => (match unsealFile toyHash (toyParams 2 1 0 0 1 1 1) st.file P_512 [1, 2, 3] with
      | .ok out => decide ((∀ v ∈ st.log, v ≠ 0) ∧ readFile out 0 64 = readFile st'.file 0 64 ∧
          readFile out 64 64 ≠ readFile st'.file 64 64)
      | _ => false)
    | _, _ => false) = true := by decide +kernel

end PoS
