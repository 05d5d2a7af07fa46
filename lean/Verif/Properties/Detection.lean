import Verif.Properties.Verdict
import Verif.Properties.Decoding
import Mathlib.Data.Finset.Powerset
import Mathlib.Data.Nat.Choose.Basic
import Mathlib.Data.Set.Card

/-
C91: what a challenge round says about the file the prover answers from.
-/

namespace PoS

set_option linter.unusedSectionVars false

/-- Two regions agree exactly if all their units do. -/
theorem readFile_units_iff (A B : Bytes) (a b c u : Nat) :
    readFile A a (c * u) = readFile B b (c * u) ↔ ∀ j < c, readFile A (a + j * u) u = readFile B (b + j * u) u := by
  constructor
  · intro h j hj
    have hju : j * u + u ≤ c * u := by
      rw [← Nat.succ_mul]
      exact Nat.mul_le_mul_right _ hj
    have h1 := readFile_readFile A a (c * u) (j * u) u hju
    have h2 := readFile_readFile B b (c * u) (j * u) u hju
    rw [← h1, ← h2, h]
  · intro h
    apply List.ext_getElem?
    intro i
    rw [readFile_getElem?, readFile_getElem?]
    by_cases hi : i < c * u
    · rw [if_pos hi, if_pos hi]
      have hu : 0 < u := by
        rcases Nat.eq_zero_or_pos u with h0 | h0
        · rw [h0] at hi; omega
        · exact h0
      have hj : i / u < c := (Nat.div_lt_iff_lt_mul hu).mpr hi
      have := congrArg (fun l => l[i % u]?) (h (i / u) hj)
      simp only [readFile_getElem?, if_pos (Nat.mod_lt i hu)] at this
      have e : i / u * u + i % u = i := by rw [Nat.mul_comm]; exact Nat.div_add_mod i u
      rw [Nat.add_assoc, Nat.add_assoc, e] at this
      exact this
    · rw [if_neg hi, if_neg hi]

/-- `copy_and_compress` on any file: the leading `unit_l` bytes of every padded unit. -/
theorem C15_compress_any (file : Bytes) (m unitL unitPl : Nat) (hu : 0 < unitL) (hle : unitL ≤ unitPl) :
    copyAndCompress file (m * unitL) unitL unitPl =
      .ok ((List.range m).map (fun i => readFile file (i * unitPl) unitL)).flatten := by
  unfold copyAndCompress
  rw [div!_of_pos hu, bind_ok, Nat.mul_div_cancel _ hu]
  induction m with
  | zero => rfl
  | succ m ih =>
    rw [forUp_succ, ih, bind_ok, List.range_succ]
    have : slice! (readFile file (m * unitPl) unitPl) 0 unitL = .ok (readFile file (m * unitPl) unitL) := by
      rw [slice!_eq_ok]
      refine ⟨⟨Nat.zero_le _, by rw [readFile_length]; exact hle⟩, ?_⟩
      have h1 := readFile_eq_take_drop (readFile file (m * unitPl) unitPl) 0 unitL (by rw [readFile_length]; omega)
      rw [readFile_readFile _ _ _ _ _ (by omega), Nat.add_zero] at h1
      rw [h1, Nat.sub_zero]
    simp only [this, bind_ok, pure_eq_ok, List.map_append, List.flatten_append, List.map_cons, List.map_nil,
      List.flatten_cons, List.flatten_nil, List.append_nil]

/-- A list of units that makes up a region of a file is the list of units of that region. -/
theorem eq_plainUnits {params : PosPara} {n c : Nat} (hlay : Layout params n c) {us : List Bytes} {X : Bytes} {k : Nat}
    (hl : us.length = c) (hu : ∀ u ∈ us, u.length = params.unitPl)
    (h : us.flatten = readFile X (k * params.blockPl) params.blockPl) : us = plainUnits params c X k := by
  apply List.ext_getElem
  · rw [hl, plainUnits_length]
  · intro j hj1 hj2
    have h1 := flatten_drop_take us params.unitPl j hj1 hu []
    rw [List.append_nil, h, readFile_readFile _ _ _ _ _ (by
      rw [hlay.block, ← Nat.succ_mul]
      exact Nat.mul_le_mul_right _ (by omega))] at h1
    rw [← h1]
    have h2 : (plainUnits params c X k)[j] = readFile X ((k * c + j) * params.unitPl) params.unitPl := by
      simp only [plainUnits, List.getElem_map, List.getElem_range]
    rw [h2, hlay.block, Nat.add_mul, Nat.mul_assoc]

section

variable {H : Bytes → Bytes} (hH : ∀ x, (H x).length = 32) {params : PosPara}
  {p n c : Nat} (cfg : Config params p n c) (hL : params.modeL = 0) (hn : LongCountOk n params.cntL)

include hH cfg hL hn in
/-- What `single_unseal_prepare` returns for block `k` of any file. -/
theorem prepare_any (f : Bytes) {k : Nat} :
    singleUnsealPrepare H params f k = .ok ⟨plainUnits params c f k,
      (if k ≠ 0 then H (readFile f ((k - 1) * params.blockPl) params.blockPl) else []),
      (hashLong H n params.cntL (H (readFile f ((k - 1) * params.blockPl) params.blockPl)) k).map (plainUnits params c f)⟩ := by
  have hidx : idxsLOf params n = .ok [] := by unfold idxsLOf; rw [if_neg (by simp [hL])]; rfl
  unfold singleUnsealPrepare
  simp only []
  rw [toUnits_plain cfg.layout, bind_ok, cfg.div, bind_ok, hidx, bind_ok, if_pos hL]
  refine bind_eq_ok.mpr ⟨_, ?_, rfl⟩
  by_cases hk0 : k = 0
  · rw [if_pos hk0, pure_eq_ok, bind_ok, readBlocks_eq cfg.layout]
    unfold hashLong
    rw [if_pos hk0]
  · rw [if_neg hk0, if_pos hk0]
    have hcur : (if params.cntL = 0 then longModeRandom H n (H (readFile f ((k - 1) * params.blockPl) params.blockPl)) k (k / 10 + 1)
        else longModeRandom H n (H (readFile f ((k - 1) * params.blockPl) params.blockPl)) k params.cntL) =
        .ok (hashLong H n params.cntL (H (readFile f ((k - 1) * params.blockPl) params.blockPl)) k) := by
      unfold hashLong
      rw [if_neg hk0]
      by_cases hz : params.cntL = 0
      · simp only [if_pos hz]
        rw [longModeRandom_eq hH (by omega) (by omega), sortDedup_eq_sort]
      · simp only [if_neg hz]
        rw [longModeRandom_eq hH (by omega) (by omega), sortDedup_eq_sort]
    rw [hcur, bind_ok, readBlocks_eq cfg.layout]

end

/-- C25 for the call: a block-aligned range of the sealed file is prepared by reading exactly the
blocks it touches, each with the identifier of its predecessor and its dependency blocks. -/
theorem C25_prepare (H : Bytes → Bytes) (hH : ∀ x, (H x).length = 32) (params : PosPara) (p n c : Nat)
    (cfg : Config params p n c) (hmode : params.modeL = 0) (hn : LongCountOk n params.cntL) (file : Bytes) (a b : Nat)
    (ha : params.blockPl ∣ a) :
    ∃ bp, batchUnsealPrepare H params file a b = .ok bp ∧ bp.blocksIdx.Pairwise (· < ·) ∧
      (∀ k, k ∈ bp.blocksIdx ↔ ∃ x, a ≤ x ∧ x < b ∧ x / params.blockPl = k) ∧
      bp.blocks = bp.blocksIdx.map (plainUnits params c file) ∧
      bp.beforeIds = bp.blocksIdx.map (fun k =>
        if k ≠ 0 then H (readFile file ((k - 1) * params.blockPl) params.blockPl) else []) ∧
      bp.dependBlocks = bp.blocksIdx.map (fun k =>
        (hashLong H n params.cntL (H (readFile file ((k - 1) * params.blockPl) params.blockPl)) k).map
          (plainUnits params c file)) := by
  obtain ⟨idxs, h1, h2, h3⟩ := C25_aligned_range params.blockPl a b (by
    rw [cfg.block_pl, cfg.unit_pl]; exact Nat.mul_pos cfg.c_pos (by omega)) ha
  obtain ⟨L, hL⟩ : ∃ L, idxsLOf params n = .ok L := by
    unfold idxsLOf
    rw [if_neg (by omega)]
    exact ⟨_, rfl⟩
  have hcnt : div! params.dataL params.blockL = .ok n := by
    have hb : 0 < params.blockL := by rw [cfg.block]; exact Nat.mul_pos cfg.c_pos cfg.unit_pos
    rw [div!_of_pos hb, cfg.data, Nat.mul_div_cancel _ hb]
  have := batchUnsealPrepare_eq h1 hcnt hL (fun k _ => prepare_any hH cfg hmode hn file (k := k))
  exact ⟨_, this, h2, h3, rfl, rfl, rfl⟩

/-- C26 for the call: a range that is not aligned is prepared as `⌈(end - begin) / block⌉` blocks from
the one that contains its beginning, so that its last block is left out exactly if the range ends
before the offset at which it began. -/
theorem C26_prepare (H : Bytes → Bytes) (hH : ∀ x, (H x).length = 32) (params : PosPara) (p n c : Nat)
    (cfg : Config params p n c) (hmode : params.modeL = 0) (hn : LongCountOk n params.cntL) (file : Bytes) (a b : Nat) (hab : a < b) :
    ∃ bp, batchUnsealPrepare H params file a b = .ok bp ∧
      bp.blocks = bp.blocksIdx.map (plainUnits params c file) ∧
      bp.blocksIdx.length * params.blockPl < b - a + params.blockPl ∧ b - a ≤ bp.blocksIdx.length * params.blockPl ∧
      (∀ i (h : i < bp.blocksIdx.length), bp.blocksIdx[i] = a / params.blockPl + i) ∧
      (((b - 1) / params.blockPl ∉ bp.blocksIdx) ↔ (b - 1) % params.blockPl + 1 ≤ a % params.blockPl) := by
  obtain ⟨idxs, h1, h2, h3, h4, -, h5, -⟩ := C26_unaligned_range params.blockPl a b (by
    rw [cfg.block_pl, cfg.unit_pl]; exact Nat.mul_pos cfg.c_pos (by omega)) hab
  obtain ⟨L, hL⟩ : ∃ L, idxsLOf params n = .ok L := by
    unfold idxsLOf
    rw [if_neg (by omega)]
    exact ⟨_, rfl⟩
  have hcnt : div! params.dataL params.blockL = .ok n := by
    have hb : 0 < params.blockL := by rw [cfg.block]; exact Nat.mul_pos cfg.c_pos cfg.unit_pos
    rw [div!_of_pos hb, cfg.data, Nat.mul_div_cancel _ hb]
  have := batchUnsealPrepare_eq h1 hcnt hL (fun k _ => prepare_any hH cfg hmode hn file (k := k))
  exact ⟨_, this, rfl, h2, h3, h4, h5⟩

/-- Three blocks of 64 bytes: the range from 60 to 70 touches blocks 0 and 1, only block 0 is read. -/
example : (match batchUnsealPrepare toyHash (toyParams 3 1 0 0 1 1 1) (toyFile 192) 60 70,
      batchUnsealPrepare toyHash (toyParams 3 1 0 0 1 1 1) (toyFile 192) 64 192 with
    | .ok u, .ok v => decide (u.blocksIdx = [0] ∧ v.blocksIdx = [1, 2] ∧
        v.blocks = [[(toyFile 192).drop 64 |>.take 64], [(toyFile 192).drop 128]])
    | _, _ => false) = true := by decide +kernel

/-- The prover answers honestly (as coded) from some file, and the verifier accepts. -/
def AcceptedFrom (H Hs : Bytes → Bytes) (params : PosPara) (origin pubdata : Bytes) (leaves : List Bytes)
    (tree : MerkleTree) (root : Bytes) (file : Bytes) (r : UInt8) (indices : List Nat) : Prop :=
  ∃ resp, proverRespond H params file tree r indices = .ok resp ∧
    verifierCheck H Hs params origin pubdata leaves root r indices resp 0 [] = .ok (some ())

/-- The block of `origin` with index `k` is among what retrieval returns. -/
def Restored (params : PosPara) (origin plain : Bytes) (k : Nat) : Prop :=
  readFile plain (k * params.blockL) params.blockL = readFile origin (k * params.blockL) params.blockL

instance (params : PosPara) (origin plain : Bytes) (k : Nat) : Decidable (Restored params origin plain k) :=
  inferInstanceAs (Decidable (_ = _))

/-- A round answered from an arbitrary file (a damaged copy of the sealed file, say) always gets an
answer, and it is accepted exactly if unsealing and compressing that file restores every challenged
block of the original; sequentially, and in parallel under every complete schedule. -/
theorem C91_any_file (H Hs : Bytes → Bytes) (hH : ∀ x, (H x).length = 32) (hHs : ∀ x, (Hs x).length = 32)
    (params : PosPara) (p n c : Nat) (cfg : Config params p n c) (hL : params.modeL = 0) (hS : ShortModeOk params n c)
    (hn : LongCountOk n params.cntL) (origin pubdata iv : Bytes) (hload : loadData pubdata = .ok ((p : Int), iv))
    (ids : List Bytes) (hids : ids.length = n) (leaves : List Bytes) (tree : MerkleTree) (root : Bytes)
    (hm : generateMerkleTreeFromData Hs ids = .ok (leaves, tree, root))
    (file : Bytes) (hlen : n * params.blockPl ≤ file.length) :
    ∃ out plain, unsealFile H params file (p : Int) iv = .ok out ∧
      copyAndCompress out params.dataL params.unitL params.unitPl = .ok plain ∧ plain.length = params.dataL ∧
      ∀ (r : UInt8) (indices : List Nat), indices.Pairwise (· < ·) → indices ≠ [] → (∀ k ∈ indices, k < n) →
        ∃ resp, proverRespond H params file tree r indices = .ok resp ∧
          (verifierCheck H Hs params origin pubdata leaves root r indices resp 0 [] = .ok (some ()) ↔
            ∀ k ∈ indices, Restored params origin plain k) ∧
          ∀ workers sched outs, 0 < workers →
            batchUnsealParallel H params indices resp.blocks resp.beforeIds resp.dependBlocks (p : Int) iv workers sched =
              .ok (some outs) →
            (verifierCheck H Hs params origin pubdata leaves root r indices resp workers sched = .ok (some ()) ↔
              ∀ k ∈ indices, Restored params origin plain k) := by
  have hLok : LongModeOk params n := ⟨fun _ => hn, fun h => by omega, fun h => by omega⟩
  have hSok := hS
  have hSok' := hS.units
  have eL : longOf H params n = unsealLongOf H params n := by unfold longOf unsealLongOf; rw [if_pos hL, if_pos hL]
  have eL2 : unsealLongOf H params n = hashLong H n params.cntL := by unfold unsealLongOf; rw [if_pos hL]
  obtain ⟨out, ho1, ho2, -, -⟩ := C79_unseal_exact H hH params p n c cfg hLok hSok file iv hlen
    (sealingOf H params p c iv (unsealLongOf H params n) (shortOf H params n c)) ⟨rfl, rfl, rfl, rfl, rfl, rfl, rfl, rfl⟩
  have hdl : params.dataL = (n * c) * params.unitL := by rw [cfg.data, cfg.block, Nat.mul_assoc]
  have hcomp := C15_compress_any out (n * c) params.unitL params.unitPl cfg.unit_pos (by rw [cfg.unit_pl]; omega)
  rw [← hdl] at hcomp
  set plain := ((List.range (n * c)).map (fun i => readFile out (i * params.unitPl) params.unitL)).flatten with hplain
  have hul : ∀ u ∈ (List.range (n * c)).map (fun i => readFile out (i * params.unitPl) params.unitL),
      u.length = params.unitL := by
    intro u hu
    obtain ⟨i, -, rfl⟩ := List.mem_map.mp hu
    exact readFile_length _ _ _
  refine ⟨out, plain, ho1, hcomp, ?_, ?_⟩
  · rw [hplain, List.length_flatten, hdl]
    rw [List.eq_replicate_of_mem (a := params.unitL) (l := List.map List.length _) (by
      intro x hx
      obtain ⟨u, hu, rfl⟩ := List.mem_map.mp hx
      exact hul u hu)]
    simp
  -- a challenged block is restored exactly if its decoded units start with the original bytes
  have hrest : ∀ k < n, Restored params origin plain k ↔
      ∀ j < c, readFile out ((k * c + j) * params.unitPl) params.unitL =
        readFile origin (k * params.blockL + j * params.unitL) params.unitL := by
    intro k hk
    unfold Restored
    rw [cfg.block, readFile_units_iff]
    refine forall_congr' fun j => forall_congr' fun hj => ?_
    have hlt : k * c + j < n * c := by
      have : (k + 1) * c ≤ n * c := Nat.mul_le_mul_right _ hk
      rw [Nat.add_mul] at this
      omega
    have h1 := flatten_drop_take ((List.range (n * c)).map (fun i => readFile out (i * params.unitPl) params.unitL))
      params.unitL (k * c + j) (by simpa using hlt) hul []
    rw [List.append_nil, List.getElem_map, List.getElem_range] at h1
    rw [show k * (c * params.unitL) + j * params.unitL = (k * c + j) * params.unitL by
      rw [Nat.add_mul, Nat.mul_assoc], hplain, h1]
  intro r indices hs hne hlt
  have hprep : ∀ k ∈ indices, singleUnsealPrepare H params file k = .ok _ := fun k _ => prepare_any hH cfg hL hn file
  obtain ⟨lv, tr, ro, proof, m1, -, m2, m3⟩ := C31_completeness Hs hHs ids
    (by
      intro h
      rw [h] at hids
      cases indices with
      | nil => exact hne rfl
      | cons a l => have := hlt a (by simp); simp at hids; omega) indices hs hne
    (fun k hk => by rw [hids]; exact hlt k hk)
  rw [hm] at m1
  cases m1
  set pr : Nat → Prepared := fun k => ⟨plainUnits params c file k,
      (if k ≠ 0 then H (readFile file ((k - 1) * params.blockPl) params.blockPl) else []),
      (hashLong H n params.cntL (H (readFile file ((k - 1) * params.blockPl) params.blockPl)) k).map
        (plainUnits params c file)⟩ with hpr
  set blocks := indices.map fun k => (pr k).block with hblocks
  set befores := indices.map fun k => (pr k).beforeId with hbefores
  set deps := indices.map fun k => (pr k).dependBlocks with hdeps
  have hresp : proverRespond H params file tree r indices =
      .ok ⟨H (responseBytes r blocks), blocks, befores, deps, proof⟩ := by
    unfold proverRespond
    rw [proverLoop_eq indices (pr := pr) (fun k hk => prepare_any hH cfg hL hn file)]
    simp only [bind_ok]
    rw [m2]
    rfl
  have wf : WellFormed params c indices blocks befores deps := by
    refine ⟨by simp [hblocks], by simp [hbefores], by simp [hdeps], ?_, ?_⟩
    · intro b hb
      obtain ⟨k, -, rfl⟩ := List.mem_map.mp hb
      refine ⟨plainUnits_length _ _ _ _, fun u hu => ?_⟩
      obtain ⟨j, -, rfl⟩ := List.mem_map.mp hu
      exact readFile_length _ _ _
    · intro d hd b hb
      obtain ⟨k, -, rfl⟩ := List.mem_map.mp hd
      obtain ⟨i, -, rfl⟩ := List.mem_map.mp hb
      exact plainUnits_length _ _ _ _
  set S := sealingOf H params p c iv (unsealLongOf H params n) (shortOf H params n c) with hSd
  have hdec : decodedBlocks S ((undelay p)^[params.vdeRounds]) iv indices blocks befores deps =
      indices.map (plainUnits params c out) := by
    apply List.ext_getElem?
    intro i
    rcases Nat.lt_or_ge i indices.length with hi | hi
    · unfold decodedBlocks
      rw [List.getElem?_map, List.getElem?_range hi, List.getElem?_map, List.getElem?_eq_getElem hi]
      simp only [Option.map_some]
      have e1 : deps.getD i [] = (pr indices[i]).dependBlocks := by
        rw [hdeps, List.getD_eq_getElem?_getD, List.getElem?_map, List.getElem?_eq_getElem hi]; rfl
      have e2 : befores.getD i [] = (pr indices[i]).beforeId := by
        rw [hbefores, List.getD_eq_getElem?_getD, List.getElem?_map, List.getElem?_eq_getElem hi]; rfl
      have e3 : blocks.getD i [] = (pr indices[i]).block := by
        rw [hblocks, List.getD_eq_getElem?_getD, List.getElem?_map, List.getElem?_eq_getElem hi]; rfl
      have e4 : indices.getD i 0 = indices[i] := by
        rw [List.getD_eq_getElem?_getD, List.getElem?_eq_getElem hi]; rfl
      rw [e1, e2, e3, e4]
      have hk := hlt _ (List.getElem_mem hi)
      generalize indices[i] = k at hk
      congr 1
      have hfl : ∀ k, (plainUnits params c file k).flatten = readFile file (k * params.blockPl) params.blockPl := by
        intro k
        obtain ⟨us, h1, h2, h3, h4⟩ := toUnits_ok (readFile file (k * params.blockPl) params.blockPl)
          params.unitPl c cfg.layout.unit_pos (by rw [readFile_length, cfg.layout.block])
        rw [toUnits_plain cfg.layout] at h1
        rw [Except.ok.inj h1]
        exact h4
      have hub : S.unsealedBlock ((undelay p)^[params.vdeRounds]) (plainUnits params c file) k =
          S.unsealOne ((undelay p)^[params.vdeRounds]) (pr k).dependBlocks (if k = 0 then iv else (pr k).beforeId) (pr k).block := by
        unfold Sealing.unsealedBlock
        simp only []
        have : S.H (plainUnits params c file (k - 1)).flatten = H (readFile file ((k - 1) * params.blockPl) params.blockPl) := by
          rw [hfl]; rfl
        rw [this]
        have hlong : S.long = hashLong H n params.cntL := eL2
        rw [hlong]
        congr 1
        by_cases hk0 : k = 0
        · rw [if_pos hk0, if_pos hk0]; rfl
        · rw [if_neg hk0, if_neg hk0]
          show _ = (if k ≠ 0 then _ else _)
          rw [if_pos hk0]
      rw [← hub]
      have hshape := unsealOne_shape (S := S) (dec := (undelay p)^[params.vdeRounds]) (deps := (pr k).dependBlocks)
        (chain := if k = 0 then iv else (pr k).beforeId) (b := (pr k).block) (plainUnits_length _ _ _ _)
        (fun u hu => by
          obtain ⟨j, -, rfl⟩ := List.mem_map.mp hu
          exact readFile_length _ _ _)
      rw [← hub] at hshape
      exact eq_plainUnits cfg.layout hshape.1 hshape.2 (ho2 k hk).symm
    · rw [List.getElem?_eq_none (by simpa [decodedBlocks] using hi), List.getElem?_eq_none (by simpa using hi)]
  have hcmp : (∀ i (hi : i < indices.length), ∃ o, (indices.map (plainUnits params c out))[i]? = some o ∧
      ∀ j < c, ∃ u, o[j]? = some u ∧ params.unitL ≤ u.length ∧ ∀ t < params.unitL,
        u[t]? = some (origin[indices[i] * params.blockL + j * params.unitL + t]?.getD 0)) ↔
      ∀ k ∈ indices, Restored params origin plain k := by
    have key : ∀ k < n, (∀ j < c, ∃ u, (plainUnits params c out k)[j]? = some u ∧ params.unitL ≤ u.length ∧
        ∀ t < params.unitL, u[t]? = some (origin[k * params.blockL + j * params.unitL + t]?.getD 0)) ↔
        Restored params origin plain k := by
      intro k hk
      rw [hrest k hk]
      refine forall_congr' fun j => forall_congr' fun hj => ?_
      have hget : (plainUnits params c out k)[j]? = some (readFile out ((k * c + j) * params.unitPl) params.unitPl) := by
        unfold plainUnits
        rw [List.getElem?_map, List.getElem?_range hj]
        rfl
      rw [hget]
      constructor
      · rintro ⟨u, hu, -, h⟩
        obtain rfl := Option.some.inj hu
        apply List.ext_getElem?
        intro t
        rw [readFile_getElem?, readFile_getElem?]
        by_cases ht : t < params.unitL
        · have := h t ht
          rw [readFile_getElem?, if_pos (by rw [cfg.unit_pl]; omega)] at this
          rw [if_pos ht, if_pos ht, this]
        · rw [if_neg ht, if_neg ht]
      · intro h
        refine ⟨_, rfl, by rw [readFile_length, cfg.unit_pl]; omega, fun t ht => ?_⟩
        have := congrArg (fun l => l[t]?) h
        simp only [readFile_getElem?, if_pos ht] at this
        rw [readFile_getElem?, if_pos (by rw [cfg.unit_pl]; omega), this]
    constructor
    · intro h k hk
      obtain ⟨i, hi, rfl⟩ := List.getElem_of_mem hk
      obtain ⟨o, ho, h⟩ := h i hi
      rw [List.getElem?_map, List.getElem?_eq_getElem hi] at ho
      obtain rfl := Option.some.inj ho
      exact (key _ (hlt _ hk)).mp h
    · intro h i hi
      refine ⟨plainUnits params c out indices[i], by rw [List.getElem?_map, List.getElem?_eq_getElem hi]; rfl, ?_⟩
      exact (key _ (hlt _ (List.getElem_mem hi))).mpr (h _ (List.getElem_mem hi))
  refine ⟨_, hresp, ?_, ?_⟩
  · rw [C74_accepted_iff H Hs params c cfg.unit_pos cfg.block, ← hcmp]
    have hex := C81_batch_exact H hH params p n c cfg hSok' iv indices blocks befores deps wf
    rw [decodedBlocks_congr (shortOf_agree hS), eL] at hex
    rw [show decodedBlocks (sealingOf H params p c iv (unsealLongOf H params n) (shortOf H params n c))
      ((undelay p)^[params.vdeRounds]) iv indices blocks befores deps = _ from hdec] at hex
    constructor
    · rintro ⟨-, -, key, iv', outs, h1, h2, -, h3⟩
      rw [hload] at h1
      cases h1
      have h2 := h2 rfl
      rw [hex] at h2
      cases h2
      exact h3
    · intro h
      exact ⟨rfl, m3, _, _, _, hload, fun _ => hex, fun h => absurd rfl h, h⟩
  · intro workers sched outs hw hpar
    rw [C74_accepted_iff H Hs params c cfg.unit_pos cfg.block, ← hcmp]
    have hex := C81_parallel_exact H hH params p n c cfg hSok iv indices blocks befores deps wf workers sched outs hpar
    rw [eL] at hex
    rw [show decodedBlocks (sealingOf H params p c iv (unsealLongOf H params n) (shortOf H params n c))
      ((undelay p)^[params.vdeRounds]) iv indices blocks befores deps = _ from hdec] at hex
    subst hex
    constructor
    · rintro ⟨-, -, key, iv', outs, h1, -, h2, h3⟩
      rw [hload] at h1
      cases h1
      have h2 := h2 (by omega)
      rw [hpar] at h2
      cases h2
      exact h3
    · intro h
      exact ⟨rfl, m3, _, _, _, hload, fun h => by omega, fun _ => hpar, h⟩

/-- How many challenges detect damage: of the sets of `q` block indices, exactly `choose good q` are
answered acceptably from the file, where `good` is the number of blocks of the original that
unsealing and compressing the file restores. -/
theorem C91_count (H Hs : Bytes → Bytes) (hH : ∀ x, (H x).length = 32) (hHs : ∀ x, (Hs x).length = 32)
    (params : PosPara) (p n c : Nat) (cfg : Config params p n c) (hL : params.modeL = 0) (hS : ShortModeOk params n c)
    (hn : LongCountOk n params.cntL) (origin pubdata iv : Bytes) (hload : loadData pubdata = .ok ((p : Int), iv))
    (ids : List Bytes) (hids : ids.length = n) (leaves : List Bytes) (tree : MerkleTree) (root : Bytes)
    (hm : generateMerkleTreeFromData Hs ids = .ok (leaves, tree, root))
    (file : Bytes) (hlen : n * params.blockPl ≤ file.length) :
    ∃ out plain, unsealFile H params file (p : Int) iv = .ok out ∧
      copyAndCompress out params.dataL params.unitL params.unitPl = .ok plain ∧
      ∀ (r : UInt8) (q : Nat), 0 < q →
        Set.ncard {s : Finset Nat | s ⊆ Finset.range n ∧ s.card = q ∧
            AcceptedFrom H Hs params origin pubdata leaves tree root file r (s.sort (· ≤ ·))} =
          ((Finset.range n).filter (fun k => Restored params origin plain k)).card.choose q := by
  obtain ⟨out, plain, h1, h2, -, h3⟩ := C91_any_file H Hs hH hHs params p n c cfg hL hS hn origin pubdata iv hload
    ids hids leaves tree root hm file hlen
  refine ⟨out, plain, h1, h2, fun r q hq => ?_⟩
  rw [← Finset.card_powersetCard, ← Set.ncard_coe_finset]
  congr 1
  ext s
  rw [Set.mem_setOf_eq, Finset.mem_coe, Finset.mem_powersetCard]
  have hacc : s ⊆ Finset.range n → s.card = q →
      (AcceptedFrom H Hs params origin pubdata leaves tree root file r (s.sort (· ≤ ·)) ↔
        ∀ k ∈ s, Restored params origin plain k) := by
    intro hsub hcard
    obtain ⟨resp, e1, e2, -⟩ := h3 r (s.sort (· ≤ ·)) (Finset.sortedLT_sort s).pairwise
      (by
        intro h
        have := Finset.length_sort (s := s) (· ≤ ·)
        rw [h] at this
        simp at this
        omega)
      (fun k hk => Finset.mem_range.mp (hsub ((Finset.mem_sort _).mp hk)))
    unfold AcceptedFrom
    constructor
    · rintro ⟨resp', e3, e4⟩ k hk
      rw [e1] at e3
      cases e3
      exact e2.mp e4 k ((Finset.mem_sort _).mpr hk)
    · intro h
      exact ⟨resp, e1, e2.mpr fun k hk => h k ((Finset.mem_sort _).mp hk)⟩
  constructor
  · rintro ⟨a, b, d⟩
    exact ⟨fun k hk => Finset.mem_filter.mpr ⟨a hk, (hacc a b).mp d k hk⟩, b⟩
  · rintro ⟨a, b⟩
    have ha : s ⊆ Finset.range n := fun k hk => (Finset.mem_filter.mp (a hk)).1
    exact ⟨ha, b, (hacc ha b).mpr fun k hk => (Finset.mem_filter.mp (a hk)).2⟩

/-- Consequently a set with more indices than there are restored blocks is never accepted. -/
theorem C91_too_many (H Hs : Bytes → Bytes) (hH : ∀ x, (H x).length = 32) (hHs : ∀ x, (Hs x).length = 32)
    (params : PosPara) (p n c : Nat) (cfg : Config params p n c) (hL : params.modeL = 0) (hS : ShortModeOk params n c)
    (hn : LongCountOk n params.cntL) (origin pubdata iv : Bytes) (hload : loadData pubdata = .ok ((p : Int), iv))
    (ids : List Bytes) (hids : ids.length = n) (leaves : List Bytes) (tree : MerkleTree) (root : Bytes)
    (hm : generateMerkleTreeFromData Hs ids = .ok (leaves, tree, root))
    (file out plain : Bytes) (hlen : n * params.blockPl ≤ file.length)
    (hout : unsealFile H params file (p : Int) iv = .ok out)
    (hplain : copyAndCompress out params.dataL params.unitL params.unitPl = .ok plain)
    (r : UInt8) (indices : List Nat) (hs : indices.Pairwise (· < ·)) (hlt : ∀ k ∈ indices, k < n)
    (hmany : ((Finset.range n).filter (fun k => Restored params origin plain k)).card < indices.length) :
    ¬ AcceptedFrom H Hs params origin pubdata leaves tree root file r indices := by
  obtain ⟨out', plain', h1, h2, -, h3⟩ := C91_any_file H Hs hH hHs params p n c cfg hL hS hn origin pubdata iv hload
    ids hids leaves tree root hm file hlen
  rw [hout] at h1
  cases h1
  rw [hplain] at h2
  cases h2
  rintro ⟨resp, e1, e2⟩
  obtain ⟨resp', e3, e4, -⟩ := h3 r indices hs (by rintro rfl; simp at hmany) hlt
  rw [e1] at e3
  cases e3
  have hall := e4.mp e2
  have hnd : indices.Nodup := hs.imp (fun h => Nat.ne_of_lt h)
  have hsub : indices.toFinset ⊆ (Finset.range n).filter (fun k => Restored params origin plain k) := by
    intro k hk
    have hk := List.mem_toFinset.mp hk
    exact Finset.mem_filter.mpr ⟨Finset.mem_range.mpr (hlt k hk), hall k hk⟩
  have := Finset.card_le_card hsub
  rw [List.toFinset_card_of_nodup hnd] at this
  omega

/-- Three blocks, one byte of sealed block 1 damaged: block 0 is restored, blocks 1 and 2 (which is
masked with the identifier of block 1) are not; the round on block 0 is accepted, the rounds on
blocks 0 and 1 and on block 2 are not. -/
example : (match copyAndPad (toyFile 189) 189 63 with
    | .ok padded => (match sealFile toyHash (toyParams 3 1 0 0 1 1 1) padded P_512 [1, 2, 3] with
      | .ok st => (match generateMerkleTreeFromData toyHash st.ids,
            unsealFile toyHash (toyParams 3 1 0 0 1 1 1) (st.file.set 70 99) P_512 [1, 2, 3] with
        | .ok (leaves, tree, root), .ok out => (match copyAndCompress out 189 63 64 with
          | .ok plain =>
            let round := fun indices => do
              let resp ← proverRespond toyHash (toyParams 3 1 0 0 1 1 1) (st.file.set 70 99) tree 7 indices
              verifierCheck toyHash toyHash (toyParams 3 1 0 0 1 1 1) (toyFile 189)
                (saveData (zeros 300) P_512 [1, 2, 3]) leaves root 7 indices resp 0 []
            decide (3 * 64 ≤ (st.file.set 70 99).length ∧ st.ids.length = 3
              ∧ Restored (toyParams 3 1 0 0 1 1 1) (toyFile 189) plain 0
              ∧ ¬ Restored (toyParams 3 1 0 0 1 1 1) (toyFile 189) plain 1
              ∧ ¬ Restored (toyParams 3 1 0 0 1 1 1) (toyFile 189) plain 2
              ∧ round [0] = .ok (some ()) ∧ round [0, 1] ≠ .ok (some ()) ∧ round [2] ≠ .ok (some ()))
          | .error _ => false)
        | _, _ => false)
      | .error _ => false)
    | .error _ => false) = true := by decide +kernel

example : loadData (saveData (zeros 300) P_512 [1, 2, 3]) = .ok (P_512, [1, 2, 3]) := by decide +kernel

end PoS
