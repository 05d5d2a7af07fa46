import Verif.Proofs.ReleaseVerify
import Verif.Properties.Postorage
import Verif.Properties.Release
import Verif.Properties.Detection
import Verif.Properties.Bytes

/-
C25, C26, C58 in every dependency mode, and C101: the remaining verifier functions in a release build.
-/

namespace PoS

set_option linter.unusedSectionVars false

/-- The body of `batch_unseal_and_verify` for one block. -/
theorem buv_block {H : Bytes → Bytes} {params : PosPara} {origin : Bytes} {idxs : List Nat}
    {blocks : List (List Bytes)} {ids : List Bytes} {deps : List (List (List Bytes))} {key : Int} {iv : Bytes}
    {S : List (List Nat)} {i k : Nat} {out : List Bytes}
    (hb : batchBlock H params key iv S idxs ids deps i blocks = .ok out) (hi : idxs[i]? = some k)
    (hv : batchVerify origin k out params.blockL params.unitL = .ok ()) :
    (at! idxs i >>= fun idx2 => at! blocks i >>= fun cur =>
          (forUp params.sealRounds (fun _ s =>
            forUp cur.length (fun j s => do
              let a ← sub! cur.length 1
              let idx1 ← sub! a j
              batchUnit H params key iv S ids deps cur.length i idx2 idx1 s) s) cur) >>= fun out =>
          batchVerify origin idx2 out params.blockL params.unitL) = .ok () := by
  unfold batchBlock at hb
  simp only [bind_eq_ok] at hb
  obtain ⟨k', hk, cur, hcur, hout⟩ := hb
  rw [at!_eq_ok.mp hk] at hi
  cases hi
  rw [hk, bind_ok, hcur, bind_ok]
  exact bind_eq_ok.mpr ⟨_, by simpa only [bind_eq_ok] using hout, hv⟩

/-- In every dependency mode in which sealing succeeds, `batch_unseal_and_verify` accepts any blocks
of the sealed file, in any order and number, prepared one by one. -/
theorem C58_honest (H : Bytes → Bytes) (hH : ∀ x, (H x).length = 32) (params : PosPara)
    (p n c : Nat) (cfg : Config params p n c) (hr : 0 < params.sealRounds) (origin : Bytes)
    (hlen : origin.length = params.dataL) (iv padded : Bytes)
    (hpad : copyAndPad origin params.dataL params.unitL = .ok padded) (st : SealState)
    (hseal : sealFile H params padded (p : Int) iv = .ok st) (hlog : ∀ v ∈ st.log, v ≠ 0)
    (idxs : List Nat) (hidx : ∀ k ∈ idxs, k < n) :
    ∃ pr : Nat → Prepared, (∀ k ∈ idxs, singleUnsealPrepare H params st.file k = .ok (pr k)) ∧
      batchUnsealAndVerify H params origin idxs (idxs.map fun k => (pr k).block)
        (idxs.map fun k => (pr k).beforeId) (idxs.map fun k => (pr k).dependBlocks) (p : Int) iv = .ok () := by
  obtain ⟨pd, g1, g2, g3, -⟩ := padded_unitsBelow cfg hlen
  rw [hpad] at g1
  cases g1
  obtain ⟨L, S, -, hS, -⟩ := sealPrefix_eq cfg (by rw [← sealFile_eq cfg]; exact hseal)
  have hex : ∀ k, ∃ pr us, k < n →
      singleUnsealPrepare H params st.file k = .ok pr ∧ pr.block.length = c ∧
      batchVerify origin k us params.blockL params.unitL = .ok () ∧
      unsealRoundsLoop H params (p : Int) iv S pr.beforeId pr.dependBlocks c k pr.block = .ok us := by
    intro k
    by_cases hk : k < n
    · obtain ⟨S', T, pr, us, h1, -, h3, h4, -, h5, h6, h7, -, h8, -⟩ :=
        sealed_block hH cfg hr (by omega) g3 hseal hlog hk
      rw [hS] at h1
      cases h1
      refine ⟨pr, us, fun _ => ⟨h3, h4, honest_block_verifies cfg hlen hpad hk h7 ?_ h6, h8⟩⟩
      obtain ⟨w, hw1, -, hw2, -⟩ := blockOf_units cfg.layout padded k
      unfold blockOf at hw1
      rw [h5] at hw1
      cases hw1
      exact hw2
    · exact ⟨⟨[], [], []⟩, [], fun h => absurd h hk⟩
  choose pr us h using hex
  refine ⟨pr, fun k hk => (h k (hidx k hk)).1, ?_⟩
  have hS' : parIdxsS params = .ok S := by
    rw [← hS]
    unfold parIdxsS idxsSOf
    rw [cfg.div]
    rfl
  unfold batchUnsealAndVerify
  change (parIdxsS params >>= fun S => _) = _
  rw [hS', bind_ok, forUp_unit_iff]
  intro i hi
  have hi' : i < idxs.length := by simpa using hi
  obtain ⟨-, h2, h3, h4⟩ := h idxs[i] (hidx _ (List.getElem_mem hi'))
  have hik := List.getElem?_eq_getElem hi'
  refine buv_block (k := idxs[i]) (out := us idxs[i]) ?_ hik h3
  rw [batchBlock_eq (b := (pr idxs[i]).beforeId) (d := (pr idxs[i]).dependBlocks) (us := (pr idxs[i]).block) (idx2 := idxs[i])
      (by rw [List.getElem?_map, hik]; rfl) (by rw [List.getElem?_map, hik]; rfl) hik
      (by rw [List.getElem?_map, hik]; rfl), h2, h4]

/-- A file sealed with static dependencies of both kinds (three blocks of three units): all of its
blocks are accepted, and with one byte of the original changed they are not. -/
example : (match copyAndPad (toyFile 567) 567 63 with
    | .ok padded => (match sealFile toyHash (toyParams 3 3 1 1 2 2 1) padded P_512 [1, 2, 3] with
      | .ok st => (match singleUnsealPrepare toyHash (toyParams 3 3 1 1 2 2 1) st.file 2,
            singleUnsealPrepare toyHash (toyParams 3 3 1 1 2 2 1) st.file 0 with
        | .ok a, .ok b => decide ((∀ v ∈ st.log, v ≠ 0) ∧ a.dependBlocks.length = 1 ∧
            batchUnsealAndVerify toyHash (toyParams 3 3 1 1 2 2 1) (toyFile 567) [2, 0] [a.block, b.block]
              [a.beforeId, b.beforeId] [a.dependBlocks, b.dependBlocks] P_512 [1, 2, 3] = .ok () ∧
            batchUnsealAndVerify toyHash (toyParams 3 3 1 1 2 2 1) ((toyFile 567).set 5 0) [2, 0] [a.block, b.block]
              [a.beforeId, b.beforeId] [a.dependBlocks, b.dependBlocks] P_512 [1, 2, 3] = .error .assertion)
        | _, _ => false)
      | _ => false)
    | _ => false) = true := by decide +kernel

/-! ### Preparing a range in every mode -/

section

variable {H : Bytes → Bytes} {params : PosPara} {p n c : Nat} (cfg : Config params p n c)
  {L : List (List Nat)} {long : Bytes → Nat → List Nat}

theorem depend_of_longIs (hlay : Layout params n c) (h : LongIs H params n L long) (file before : Bytes) {k : Nat} (hk : k < n) :
    (if params.modeL = 0 then do
        let cur ←
         (if k = 0 then pure []
          else
            if params.cntL = 0 then longModeRandom H n before k (k / 10 + 1)
            else longModeRandom H n before k params.cntL : R (List Nat))
        readBlocks params file cur
      else do
        let cur ← at! L k
        readBlocks params file cur : R (List (List Bytes))) = .ok ((long before k).map (plainUnits params c file)) := by
  have hb : k ≠ 0 → (List.replicate n before)[k - 1]? = some before := by
    intro _
    rw [List.getElem?_replicate, if_pos (by omega)]
  have := (h k hk before).2 file (List.replicate n before) hb
  rw [readBlocks_eq hlay] at this
  rw [← this]
  unfold sealDependBlocks
  by_cases hm : params.modeL = 0
  · rw [if_pos hm, if_pos hm]
    by_cases hk0 : k = 0
    · rw [if_pos hk0, if_pos hk0]
    · rw [if_neg hk0, if_neg hk0, at!_eq_ok.mpr (hb hk0), bind_ok]
  · rw [if_neg hm, if_neg hm]

include cfg in
theorem single_of_longIs (hL : idxsLOf params n = .ok L) (h : LongIs H params n L long) (file : Bytes) {k : Nat} (hk : k < n) :
    singleUnsealPrepare H params file k = .ok ⟨plainUnits params c file k,
      (if k ≠ 0 then H (readFile file ((k - 1) * params.blockPl) params.blockPl) else []),
      (long (if k ≠ 0 then H (readFile file ((k - 1) * params.blockPl) params.blockPl) else []) k).map
        (plainUnits params c file)⟩ := by
  unfold singleUnsealPrepare
  simp only []
  rw [toUnits_plain cfg.layout, bind_ok, cfg.div, bind_ok, hL, bind_ok]
  exact bind_eq_ok.mpr ⟨_, depend_of_longIs cfg.layout h file _ hk, rfl⟩

include cfg in
theorem single_of_longIsR (hL : idxsLOfR params n = .ok L) (h : LongIs H params n L long) (file : Bytes) {k : Nat} (hk : k < n) :
    singleUnsealPrepareR H params file k = .ok ⟨plainUnits params c file k,
      (if k ≠ 0 then H (readFile file ((k - 1) * params.blockPl) params.blockPl) else []),
      (long (if k ≠ 0 then H (readFile file ((k - 1) * params.blockPl) params.blockPl) else []) k).map
        (plainUnits params c file)⟩ := by
  unfold singleUnsealPrepareR
  simp only []
  rw [toUnits_plain cfg.layout, bind_ok, cfg.div, bind_ok, hL, bind_ok]
  exact bind_eq_ok.mpr ⟨_, depend_of_longIs cfg.layout h file _ hk, rfl⟩

end

/-- C25 in every dependency mode that works: a range inside the file is prepared by reading exactly
the blocks it touches (if it begins on a block boundary), each with the identifier of its predecessor
and the blocks it depends on. -/
theorem C25_prepare_modes (H : Bytes → Bytes) (hH : ∀ x, (H x).length = 32) (params : PosPara) (p n c : Nat)
    (cfg : Config params p n c) (hmode : LongModeOk params n) (file : Bytes) (a b : Nat)
    (ha : params.blockPl ∣ a) (hb : b ≤ n * params.blockPl) (long : Bytes → Nat → List Nat)
    (hlong : long = if params.modeL = 0 then hashLong H n params.cntL else fun _ => staticLong params.modeL params.cntL) :
    ∃ bp, batchUnsealPrepare H params file a b = .ok bp ∧ bp.blocksIdx.Pairwise (· < ·) ∧
      (∀ k, k ∈ bp.blocksIdx ↔ ∃ x, a ≤ x ∧ x < b ∧ x / params.blockPl = k) ∧
      bp.blocks = bp.blocksIdx.map (plainUnits params c file) ∧
      bp.beforeIds = bp.blocksIdx.map (fun k =>
        if k ≠ 0 then H (readFile file ((k - 1) * params.blockPl) params.blockPl) else []) ∧
      bp.dependBlocks = bp.blocksIdx.map (fun k =>
        (long (if k ≠ 0 then H (readFile file ((k - 1) * params.blockPl) params.blockPl) else []) k).map
          (plainUnits params c file)) := by
  have hpos : 0 < params.blockPl := by
    rw [cfg.block_pl, cfg.unit_pl]; exact Nat.mul_pos cfg.c_pos (by omega)
  obtain ⟨idxs, h1, h2, h3⟩ := C25_aligned_range params.blockPl a b hpos ha
  obtain ⟨L, hL, his⟩ := longOf_is hH hmode
  have hlt : ∀ k ∈ idxs, k < n := by
    intro k hk
    obtain ⟨x, -, hx, rfl⟩ := (h3 k).mp hk
    exact Nat.div_lt_of_lt_mul (by rw [Nat.mul_comm]; omega)
  have := batchUnsealPrepare_eq h1 cfg.div hL (fun k hk => single_of_longIs cfg hL his file (hlt k hk))
  subst hlong
  exact ⟨_, this, h2, h3, rfl, rfl, rfl⟩

/-- C26 in every dependency mode that works: the blocks prepared for a range inside the file that begins
anywhere, and what is prepared for each of them. -/
theorem C26_prepare_modes (H : Bytes → Bytes) (hH : ∀ x, (H x).length = 32) (params : PosPara) (p n c : Nat)
    (cfg : Config params p n c) (hmode : LongModeOk params n) (file : Bytes) (a b : Nat) (hab : a < b)
    (hb : b ≤ n * params.blockPl) (long : Bytes → Nat → List Nat)
    (hlong : long = if params.modeL = 0 then hashLong H n params.cntL else fun _ => staticLong params.modeL params.cntL) :
    ∃ bp, batchUnsealPrepare H params file a b = .ok bp ∧
      bp.blocksIdx.length * params.blockPl < b - a + params.blockPl ∧ b - a ≤ bp.blocksIdx.length * params.blockPl ∧
      (∀ i (h : i < bp.blocksIdx.length), bp.blocksIdx[i] = a / params.blockPl + i) ∧
      (((b - 1) / params.blockPl ∉ bp.blocksIdx) ↔ (b - 1) % params.blockPl + 1 ≤ a % params.blockPl) ∧
      bp.blocks = bp.blocksIdx.map (plainUnits params c file) ∧
      bp.beforeIds = bp.blocksIdx.map (fun k =>
        if k ≠ 0 then H (readFile file ((k - 1) * params.blockPl) params.blockPl) else []) ∧
      bp.dependBlocks = bp.blocksIdx.map (fun k =>
        (long (if k ≠ 0 then H (readFile file ((k - 1) * params.blockPl) params.blockPl) else []) k).map
          (plainUnits params c file)) := by
  have hpos : 0 < params.blockPl := by
    rw [cfg.block_pl, cfg.unit_pl]; exact Nat.mul_pos cfg.c_pos (by omega)
  obtain ⟨idxs, h1, h2, h3, h4, h5, h6, -⟩ := C26_unaligned_range params.blockPl a b hpos hab
  obtain ⟨L, hL, his⟩ := longOf_is hH hmode
  have hlt : ∀ k ∈ idxs, k < n := by
    intro k hk
    obtain ⟨x, -, hx, rfl⟩ := h5 k hk
    exact Nat.div_lt_of_lt_mul (by rw [Nat.mul_comm]; omega)
  have := batchUnsealPrepare_eq h1 cfg.div hL (fun k hk => single_of_longIs cfg hL his file (hlt k hk))
  subst hlong
  exact ⟨_, this, h2, h3, h4, h6, rfl, rfl, rfl⟩

/-- Three blocks of 64 bytes with static long dependencies at the distances 1 and 3. -/
example : (match batchUnsealPrepare toyHash (toyParams 3 1 1 0 2 1 1) (toyFile 192) 64 192 with
    | .ok v => decide (v.blocksIdx = [1, 2] ∧ v.dependBlocks = [[[(toyFile 192).take 64]], [[(toyFile 192).drop 64 |>.take 64]]])
    | _ => false) = true := by decide +kernel

/-- The same file, a range of 12 bytes that begins in block 1 and loses block 2, and one of 70 bytes
that does not. -/
example : (match batchUnsealPrepare toyHash (toyParams 3 1 1 0 2 1 1) (toyFile 192) 120 132,
      batchUnsealPrepare toyHash (toyParams 3 1 1 0 2 1 1) (toyFile 192) 120 190 with
    | .ok u, .ok v => decide (u.blocksIdx = [1] ∧ u.dependBlocks = [[[(toyFile 192).take 64]]] ∧ v.blocksIdx = [1, 2])
    | _, _ => false) = true := by decide +kernel

/-! ### C101: the remaining verifier functions in a release build -/

/-- A completed debug run of the range preparation, of `batch_unseal_and_verify` and of the parallel
version has the same result in a release build. -/
theorem C101_same_runs (H : Bytes → Bytes) (params : PosPara) (p n c : Nat) (cfg : Config params p n c)
    (hn : n ≤ 2 ^ 63) :
    (∀ file a b bp, batchUnsealPrepare H params file a b = .ok bp → batchUnsealPrepareR H params file a b = .ok bp) ∧
    (∀ origin idxs blocks befores deps iv,
      batchUnsealAndVerify H params origin idxs blocks befores deps (p : Int) iv = .ok () →
      batchUnsealAndVerifyR H params origin idxs blocks befores deps (p : Int) iv = .ok ()) ∧
    (∀ idxs blocks befores deps iv workers sched outs,
      batchUnsealParallel H params idxs blocks befores deps (p : Int) iv workers sched = .ok outs →
      batchUnsealParallelR H params idxs blocks befores deps (p : Int) iv workers sched = .ok outs) := by
  refine ⟨fun file a b bp h => ?_, fun origin idxs blocks befores deps iv h => ?_,
    fun idxs blocks befores deps iv workers sched outs h => ?_⟩
  · unfold batchUnsealPrepare at h
    unfold batchUnsealPrepareR
    rw [cfg.div] at h ⊢
    obtain ⟨i, h1, h⟩ := bind_eq_ok.mp h
    obtain ⟨bl, h2, h⟩ := bind_eq_ok.mp h
    rw [bind_ok] at h
    obtain ⟨L, hL, h⟩ := bind_eq_ok.mp h
    rw [h1, bind_ok, h2, bind_ok, bind_ok, idxsLOf_agrees hL, bind_ok]
    exact h
  · unfold batchUnsealAndVerify at h
    change (parIdxsS params >>= fun S => _) = _ at h
    obtain ⟨S, hS, h⟩ := bind_eq_ok.mp h
    rw [parIdxsS_eq cfg] at hS
    unfold batchUnsealAndVerifyR
    rw [parIdxsSR_eq cfg, idxsSOf_agrees hn hS, bind_ok]
    exact h
  · unfold batchUnsealParallel at h
    obtain ⟨S, hS, h⟩ := bind_eq_ok.mp h
    rw [parIdxsS_eq cfg] at hS
    unfold batchUnsealParallelR
    rw [parIdxsSR_eq cfg, idxsSOf_agrees hn hS, bind_ok]
    exact h

/-- Range preparation in a release build never panics for a range inside the file, in any mode (hash-chosen
long dependencies: at most 65536 blocks), and reads exactly the blocks the range touches, with the
release dependency lists. -/
theorem C101_prepare (H : Bytes → Bytes) (hH : ∀ x, (H x).length = 32) (params : PosPara) (p n c : Nat)
    (cfg : Config params p n c) (hz : ReleaseSizes params n) (h0 : params.modeL = 0 → LongCountOk n params.cntL) (file : Bytes) (a b : Nat)
    (ha : params.blockPl ∣ a) (hb : b ≤ n * params.blockPl) (long : Bytes → Nat → List Nat)
    (hlong : long = if params.modeL = 0 then hashLong H n params.cntL
      else if params.modeL = 2 then fun _ k => wrappedPowers k params.cntL
      else if params.modeL = 3 then fun _ k => wrappedPowers k (k / 10)
      else fun _ => staticLong params.modeL params.cntL) :
    ∃ bp, batchUnsealPrepareR H params file a b = .ok bp ∧ bp.blocksIdx.Pairwise (· < ·) ∧
      (∀ k, k ∈ bp.blocksIdx ↔ ∃ x, a ≤ x ∧ x < b ∧ x / params.blockPl = k) ∧
      bp.blocks = bp.blocksIdx.map (plainUnits params c file) ∧
      bp.beforeIds = bp.blocksIdx.map (fun k =>
        if k ≠ 0 then H (readFile file ((k - 1) * params.blockPl) params.blockPl) else []) ∧
      bp.dependBlocks = bp.blocksIdx.map (fun k =>
        (long (if k ≠ 0 then H (readFile file ((k - 1) * params.blockPl) params.blockPl) else []) k).map
          (plainUnits params c file)) := by
  have hpos : 0 < params.blockPl := by
    rw [cfg.block_pl, cfg.unit_pl]; exact Nat.mul_pos cfg.c_pos (by omega)
  obtain ⟨idxs, h1, h2, h3⟩ := C25_aligned_range params.blockPl a b hpos ha
  obtain ⟨L, hL, his⟩ := longOfR_is hH h0 hz
  have hlt : ∀ k ∈ idxs, k < n := by
    intro k hk
    obtain ⟨x, -, hx, rfl⟩ := (h3 k).mp hk
    exact Nat.div_lt_of_lt_mul (by rw [Nat.mul_comm]; omega)
  have := batchUnsealPrepareR_eq h1 cfg.div hL (fun k hk => single_of_longIsR cfg hL his file (hlt k hk))
  subst hlong
  exact ⟨_, this, h2, h3, rfl, rfl, rfl⟩

/-- A file sealed in a release build, in any mode that seals: `batch_unseal_and_verify` accepts any of
its blocks, a complete schedule of the parallel version exists for every positive number of threads,
and every complete schedule returns the plaintext. -/
theorem C101_honest (H : Bytes → Bytes) (hH : ∀ x, (H x).length = 32) (params : PosPara)
    (p n c : Nat) (cfg : Config params p n c) (hz : ReleaseSizes params n) (origin : Bytes)
    (hlen : origin.length = params.dataL) (iv padded : Bytes)
    (hpad : copyAndPad origin params.dataL params.unitL = .ok padded) (st : SealState)
    (hseal : sealFileR H params padded (p : Int) iv = .ok st) (hlog : ∀ v ∈ st.log, v ≠ 0)
    (idxs : List Nat) (hidx : ∀ k ∈ idxs, k < n) :
    ∃ pr : Nat → Prepared, ∃ plain : List (List Bytes),
      (∀ k ∈ idxs, singleUnsealPrepareR H params st.file k = .ok (pr k)) ∧
      plain = idxs.map (fun k => (List.range c).map (fun j =>
        readFile origin (k * params.blockL + j * params.unitL) params.unitL ++ [0])) ∧
      batchUnsealAndVerifyR H params origin idxs (idxs.map fun k => (pr k).block)
        (idxs.map fun k => (pr k).beforeId) (idxs.map fun k => (pr k).dependBlocks) (p : Int) iv = .ok () ∧
      ∀ workers, 0 < workers →
        (∀ sched outs, batchUnsealParallelR H params idxs (idxs.map fun k => (pr k).block)
          (idxs.map fun k => (pr k).beforeId) (idxs.map fun k => (pr k).dependBlocks) (p : Int) iv workers sched =
            .ok (some outs) → outs = plain) ∧
        ∃ sched, batchUnsealParallelR H params idxs (idxs.map fun k => (pr k).block)
          (idxs.map fun k => (pr k).beforeId) (idxs.map fun k => (pr k).dependBlocks) (p : Int) iv workers sched =
            .ok (some plain) := by
  obtain ⟨pd, g1, g2, g3, -⟩ := padded_unitsBelow cfg hlen
  rw [hpad] at g1
  cases g1
  have hn63 : n ≤ 2 ^ 63 := by have := hz.2; omega
  obtain ⟨L, S, hL, hS, hrun⟩ := sealFileR_eq cfg hseal
  have hex : ∀ k, ∃ pr, k < n →
      singleUnsealPrepareR H params st.file k = .ok pr ∧ pr.block.length = c ∧
      unsealRoundsLoop H params (p : Int) iv S pr.beforeId pr.dependBlocks c k pr.block =
        .ok (plainUnits params c padded k) := by
    intro k
    by_cases hk : k < n
    · obtain ⟨us', b, deps, us, e1, e2, hdeps, husl', -, htu, hblock, husl, -, -, hun⟩ :=
        sealed_block_tables hH cfg (by omega) g3 (idxsLOfR_longOk hz hL) (idxsSOfR_shortOk hn63 hS) hrun hlog hk
      have hprep : singleUnsealPrepareR H params st.file k = .ok ⟨us', b, deps⟩ := by
        unfold singleUnsealPrepareR
        simp only []
        rw [e1, bind_ok, cfg.div, bind_ok, hL, bind_ok]
        simp only [e2]
        exact bind_eq_ok.mpr ⟨deps, hdeps, rfl⟩
      rw [toUnits_plain cfg.layout] at htu
      cases htu
      exact ⟨⟨us', b, deps⟩, fun _ => ⟨hprep, husl', hun⟩⟩
    · exact ⟨⟨[], [], []⟩, fun h => absurd h hk⟩
  choose pr h using hex
  have hplain : ∀ k < n, plainUnits params c padded k = (List.range c).map (fun j =>
      readFile origin (k * params.blockL + j * params.unitL) params.unitL ++ [0]) := by
    intro k hk
    have hd : params.dataL = (n * c) * params.unitL := by rw [cfg.data, cfg.block, Nat.mul_assoc]
    obtain ⟨pd, q1, -, q3, -⟩ := C15_pad_compress origin params.unitL (n * c) cfg.unit_pos (by rw [hlen, hd])
    rw [← hd, hpad] at q1
    cases q1
    unfold plainUnits
    apply List.map_congr_left
    intro j hj
    have hj := List.mem_range.mp hj
    have hlt : k * c + j < n * c := by
      have : (k + 1) * c ≤ n * c := Nat.mul_le_mul_right _ hk
      rw [Nat.succ_mul] at this
      omega
    rw [cfg.unit_pl, q3 _ hlt, cfg.block, ← Nat.mul_assoc, ← Nat.add_mul]
  have hblk : ∀ i (hi : i < idxs.length), batchBlock H params (p : Int) iv S idxs (idxs.map fun k => (pr k).beforeId)
      (idxs.map fun k => (pr k).dependBlocks) i (idxs.map fun k => (pr k).block) =
      .ok (plainUnits params c padded idxs[i]) := by
    intro i hi
    obtain ⟨-, h2, h4⟩ := h idxs[i] (hidx _ (List.getElem_mem hi))
    have hik := List.getElem?_eq_getElem hi
    rw [batchBlock_eq (b := (pr idxs[i]).beforeId) (d := (pr idxs[i]).dependBlocks) (us := (pr idxs[i]).block) (idx2 := idxs[i])
      (by rw [List.getElem?_map, hik]; rfl) (by rw [List.getElem?_map, hik]; rfl) hik
      (by rw [List.getElem?_map, hik]; rfl), h2, h4]
  have hS' : parIdxsSR params = .ok S := by rw [parIdxsSR_eq cfg, hS]
  have hall : ∀ workers sched outs, batchUnsealParallelR H params idxs (idxs.map fun k => (pr k).block)
          (idxs.map fun k => (pr k).beforeId) (idxs.map fun k => (pr k).dependBlocks) (p : Int) iv workers sched =
            .ok (some outs) → outs = idxs.map (fun k => (List.range c).map (fun j =>
        readFile origin (k * params.blockL + j * params.unitL) params.unitL ++ [0])) := by
    intro workers sched outs ho
    obtain ⟨S', hS'', hl, hb⟩ := parallel_resultR ho
    rw [hS'] at hS''
    cases hS''
    rw [List.length_map] at hl
    apply List.ext_getElem (by simp [hl])
    intro i hi1 hi2
    have hi : i < idxs.length := by omega
    have := hb i (by simpa using hi)
    rw [hblk i hi, List.getElem?_eq_getElem hi1] at this
    rw [List.getElem_map, Option.some.inj this]
    exact hplain _ (hidx _ (List.getElem_mem hi))
  refine ⟨pr, _, fun k hk => (h k (hidx k hk)).1, rfl, ?_, fun workers hw => ⟨fun sched outs ho => hall workers sched outs ho, ?_⟩⟩
  · unfold batchUnsealAndVerifyR
    rw [hS', bind_ok]
    change forUp _ (fun i _ => _) () = _
    rw [forUp_unit_iff]
    intro i hi
    have hi' : i < idxs.length := by simpa using hi
    have hik := List.getElem?_eq_getElem hi'
    have hk := hidx _ (List.getElem_mem hi')
    refine buv_block (k := idxs[i]) (hblk i hi') hik ?_
    rw [hplain _ hk, batchVerify_iff cfg.unit_pos cfg.block]
    intro j hj
    refine ⟨_, by rw [List.getElem?_map, List.getElem?_range hj]; rfl, ?_⟩
    rw [List.take_left' (readFile_length _ _ _)]
  · obtain ⟨rest, st', hr, hf⟩ := parRun_complete hw _ _
      (parInv_init ⟨H, params, (p : Int), iv, S, idxs, idxs.map fun k => (pr k).beforeId, idxs.map fun k => (pr k).dependBlocks⟩
        (idxs.map fun k => (pr k).block)) (Nat.le_refl _)
    refine ⟨rest, ?_⟩
    have hrun' : batchUnsealParallelR H params idxs (idxs.map fun k => (pr k).block)
          (idxs.map fun k => (pr k).beforeId) (idxs.map fun k => (pr k).dependBlocks) (p : Int) iv workers rest =
            .ok (some st'.blocks) := by
      unfold batchUnsealParallelR
      rw [hS', bind_ok, if_neg (by omega), hr]
      simp only []
      rw [if_pos hf]
      rfl
    rw [hrun', hall workers rest _ hrun']

/-- A file sealed in a release build with mode 2 of both kinds (a debug build panics on it): block 2
is accepted, and so is the range that consists of blocks 1 and 2. -/
example : (match copyAndPad (toyFile 567) 567 63 with
    | .ok padded => (match sealFileR toyHash (toyParams 3 3 2 2 3 4 1) padded P_512 [1, 2, 3] with
      | .ok st => (match singleUnsealPrepareR toyHash (toyParams 3 3 2 2 3 4 1) st.file 2,
          batchUnsealPrepareR toyHash (toyParams 3 3 2 2 3 4 1) st.file 192 576 with
        | .ok a, .ok bp => decide ((∀ v ∈ st.log, v ≠ 0) ∧ bp.blocksIdx = [1, 2] ∧
            batchUnsealAndVerifyR toyHash (toyParams 3 3 2 2 3 4 1) (toyFile 567) [2] [a.block] [a.beforeId] [a.dependBlocks]
              P_512 [1, 2, 3] = .ok () ∧
            batchUnsealAndVerify toyHash (toyParams 3 3 2 2 3 4 1) (toyFile 567) [2] [a.block] [a.beforeId] [a.dependBlocks]
              P_512 [1, 2, 3] = .error .overflow ∧
            batchUnsealAndVerifyR toyHash (toyParams 3 3 2 2 3 4 1) (toyFile 567) bp.blocksIdx bp.blocks bp.beforeIds
              bp.dependBlocks P_512 [1, 2, 3] = .ok () ∧
            batchUnsealAndVerifyR toyHash (toyParams 3 3 2 2 3 4 1) ((toyFile 567).set 400 0) [2] [a.block] [a.beforeId]
              [a.dependBlocks] P_512 [1, 2, 3] = .error .assertion)
        | _, _ => false)
      | _ => false)
    | _ => false) = true := by decide +kernel

end PoS
