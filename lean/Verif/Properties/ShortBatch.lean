import Verif.Model.ShortBatch
import Verif.Properties.ShortRound
import Verif.Properties.StaticVerify
import Verif.Properties.Workflow

/-
C115: ranges of blocks and whole runs of `test_postorage` when reads return fewer bytes than asked for.
-/

namespace PoS

set_option linter.unusedSectionVars false

/-! ### Complete reads -/

theorem copyAndPadShort_full {got : Nat → Nat} {unitL : Nat} (h : ∀ i, unitL ≤ got i) (origin : Bytes) (dataL : Nat) :
    copyAndPadShort got origin dataL unitL = copyAndPad origin dataL unitL := by
  unfold copyAndPadShort copyAndPad
  simp only [readFileShort_full (h _)]

theorem sealFileShort_full {own : Nat → Nat} {dep : Nat → Nat → Nat} {params : PosPara} (ho : ∀ k, params.blockPl ≤ own k)
    (hd : ∀ k m, params.blockPl ≤ dep k m) (H : Bytes → Bytes) (file : Bytes) (key : Int) (iv : Bytes) :
    sealFileShort own dep H params file key iv = sealFile H params file key iv := by
  have e : ∀ n L S k s, sealBlockShort (own k) (dep k) H params key iv n L S k s = sealBlock H params key iv n L S k s := by
    intro n L S k s
    unfold sealBlockShort sealBlock
    simp only [readFileShort_full (ho k), readBlocksShort_full _ (hd k)]
    have : sealDependBlocks H params n L s.file s.ids k =
        (sealLongIdxs H params n L s.ids k >>= readBlocks params s.file) := by
      unfold sealDependBlocks sealLongIdxs
      by_cases hm : params.modeL = 0
      · simp only [if_pos hm]
      · simp only [if_neg hm]
    rw [this]
    congr 1
    funext b
    rw [bind_assoc]
  unfold sealFileShort sealFile sealPrefix
  simp only [e]
  cases div! params.dataL params.blockL with
  | error _ => rfl
  | ok n => rfl

theorem unsealFileShort_full {own before : Nat → Nat} {dep : Nat → Nat → Nat} {params : PosPara}
    (ho : ∀ k, params.blockPl ≤ own k) (hb : ∀ k, params.blockPl ≤ before k)
    (hd : ∀ k m, params.blockPl ≤ dep k m) (H : Bytes → Bytes) (file : Bytes) (key : Int) (iv : Bytes) :
    unsealFileShort own before dep H params file key iv = unsealFile H params file key iv := by
  have e : ∀ n L S k f, unsealBlockShort (own k) (before k) (dep k) H params key iv n L S k f =
      unsealBlock H params key iv n L S k f := by
    intro n L S k f
    unfold unsealBlockShort unsealBlock
    simp only [readFileShort_full (ho k), readFileShort_full (hb k), readBlocksShort_full _ (hd k)]
    have : ∀ id, unsealDependBlocks H params n L f id k =
        (unsealLongIdxs H params n L id k >>= readBlocks params f) := by
      intro id
      unfold unsealDependBlocks unsealLongIdxs
      have hr : ∀ cur : List Nat, forUp cur.length (fun i res => do
            let c ← at! cur i
            let buf := readFile f (c * params.blockPl) params.blockPl
            let ans ← toUnits buf params.unitPl
            pure (res ++ [ans])) [] = readBlocks params f cur := fun cur =>
        forUp_at_eq_forEach cur (fun c res => do
          let ans ← toUnits (readFile f (c * params.blockPl) params.blockPl) params.unitPl
          pure (res ++ [ans])) []
      by_cases hm : params.modeL = 0
      · simp only [if_pos hm, hr]
      · simp only [if_neg hm]
        cases at! L k with
        | error _ => rfl
        | ok cur =>
          rw [bind_ok, bind_ok, pure_eq_ok, bind_ok, ← hr, List.length_range]
          refine forUp_congr fun i hi s => ?_
          rw [at!_of_lt (by simpa using hi), bind_ok, List.getElem_range]
    unfold unsealBeforeId
    simp only [this]
    congr 1
    funext b
    rw [bind_assoc]
  unfold unsealFileShort unsealFile unsealFrom
  simp only [e]
  cases div! params.dataL params.blockL with
  | error _ => rfl
  | ok n => rfl

theorem batchUnsealPrepareShort_full {own before : Nat → Nat} {dep : Nat → Nat → Nat} {params : PosPara}
    (ho : ∀ k, params.blockPl ≤ own k) (hb : ∀ k, params.blockPl ≤ before k)
    (hd : ∀ k m, params.blockPl ≤ dep k m) (H : Bytes → Bytes) (file : Bytes) (a b : Nat) :
    batchUnsealPrepareShort own before dep H params file a b = batchUnsealPrepare H params file a b := by
  unfold batchUnsealPrepareShort batchUnsealPrepare
  simp only [readFileShort_full (ho _), readFileShort_full (hb _), readBlocksShort_full _ (hd _)]

theorem batchVerifyShort_full {got : Nat} {blockL : Nat} (h : blockL ≤ got) (origin : Bytes) (k : Nat) (b : List Bytes)
    (unitL : Nat) : batchVerifyShort got origin k b blockL unitL = batchVerify origin k b blockL unitL := by
  unfold batchVerifyShort batchVerify
  simp only [readFileShort_full h]

theorem unsealSingleAndVerifyShort_full {own before got : Nat → Nat} {dep : Nat → Nat → Nat} {params : PosPara}
    (ho : ∀ k, params.blockPl ≤ own k) (hb : ∀ k, params.blockPl ≤ before k)
    (hd : ∀ k m, params.blockPl ≤ dep k m) (hg : ∀ k, params.blockL ≤ got k) (H : Bytes → Bytes) (d : Disk) (par : Nat)
    (sched : List Nat) :
    unsealSingleAndVerifyShort own before got dep H params d par sched = unsealSingleAndVerify H params d par sched := by
  unfold unsealSingleAndVerifyShort unsealSingleAndVerify
  simp only [batchUnsealPrepareShort_full ho hb hd, batchVerifyShort_full (hg _)]
  rfl

theorem merkleTreeProofShort_full {gotO gotU : Nat → Nat} {blockL : Nat} (ho : ∀ i, blockL ≤ gotO i)
    (hu : ∀ i, blockL ≤ gotU i) (Hs : Bytes → Bytes) (origin unsealed : Bytes) (dataL leavesCount : Nat)
    (draw : Nat → Nat) (fuel : Nat) :
    merkleTreeProofShort gotO gotU Hs origin unsealed dataL blockL leavesCount draw fuel =
      merkleTreeProof Hs origin unsealed dataL blockL leavesCount draw fuel := by
  unfold merkleTreeProofShort merkleTreeProof
  have e : ∀ (got : Nat → Nat) (f : Bytes), (∀ i, blockL ≤ got i) →
      generateMerkleTreeFromFileShort got Hs f dataL blockL = generateMerkleTreeFromFile Hs f dataL blockL := by
    intro got f h
    unfold generateMerkleTreeFromFileShort generateMerkleTreeFromFile
    simp only [readFileShort_full (h _)]
    rfl
  simp only [e gotO _ ho, e gotU _ hu]
  rfl

/-- With complete reads the functions are those of the other claims. -/
theorem C115_complete (H Hs : Bytes → Bytes) (params : PosPara) :
    (∀ (own before : Nat → Nat) (dep : Nat → Nat → Nat) (file : Bytes) (a b : Nat),
      (∀ k, params.blockPl ≤ own k) → (∀ k, params.blockPl ≤ before k) → (∀ k m, params.blockPl ≤ dep k m) →
      batchUnsealPrepareShort own before dep H params file a b = batchUnsealPrepare H params file a b) ∧
    (∀ (got : Nat → Nat) (origin : Bytes) (idxs : List Nat) (blocks : List (List Bytes)) (ids : List Bytes)
      (deps : List (List (List Bytes))) (key : Int) (iv : Bytes), (∀ k, params.blockL ≤ got k) →
      batchUnsealAndVerifyShort got H params origin idxs blocks ids deps key iv =
        batchUnsealAndVerify H params origin idxs blocks ids deps key iv) ∧
    (∀ (own before got : Nat → Nat) (dep : Nat → Nat → Nat) (d : Disk) (par : Nat) (sched : List Nat),
      (∀ k, params.blockPl ≤ own k) → (∀ k, params.blockPl ≤ before k) → (∀ k m, params.blockPl ≤ dep k m) →
      (∀ k, params.blockL ≤ got k) →
      unsealSingleAndVerifyShort own before got dep H params d par sched = unsealSingleAndVerify H params d par sched) ∧
    (∀ rd : RunReads, (∀ i, params.unitL ≤ rd.pad i) →
      (∀ k, params.blockPl ≤ rd.sealOwn k) → (∀ k m, params.blockPl ≤ rd.sealDep k m) →
      (∀ k, params.blockPl ≤ rd.unsealOwn k) → (∀ k, params.blockPl ≤ rd.unsealBefore k) →
      (∀ k m, params.blockPl ≤ rd.unsealDep k m) → (∀ i, params.unitPl ≤ rd.compress i) →
      (∀ k, params.blockPl ≤ rd.singleOwn k) → (∀ k, params.blockPl ≤ rd.singleBefore k) →
      (∀ k m, params.blockPl ≤ rd.singleDep k m) → (∀ k, params.blockL ≤ rd.singleOrigin k) →
      (∀ i, params.blockL ≤ rd.treeOrigin i) → (∀ i, params.blockL ≤ rd.treeUnsealed i) →
      ∀ (flags : Flags) (par : Nat) (ch : RunChoices) (d : Disk),
        testPostorageShort rd H Hs params flags par ch d = testPostorage H Hs params flags par ch d) := by
  refine ⟨fun own before dep file a b h1 h2 h3 => batchUnsealPrepareShort_full h1 h2 h3 H file a b,
    fun got origin idxs blocks ids deps key iv h => ?_,
    fun own before got dep d par sched h1 h2 h3 h4 => unsealSingleAndVerifyShort_full h1 h2 h3 h4 H d par sched,
    fun rd h1 h2 h3 h4 h5 h6 h7 h8 h9 h10 h11 h12 h13 flags par ch d => ?_⟩
  · unfold batchUnsealAndVerifyShort batchUnsealAndVerify
    simp only [readFileShort_full (h _)]
  · unfold testPostorageShort testPostorage sealAndUnsealShort sealAndUnseal
    simp only [copyAndPadShort_full h1, sealFileShort_full h2 h3, unsealFileShort_full h4 h5 h6,
      (C113_complete H Hs params).1 _ _ _ _ _ h7, unsealSingleAndVerifyShort_full h8 h9 h10 h11,
      merkleTreeProofShort_full h12 h13]
    rfl

/-! ### Ranges -/

theorem singleUnsealPrepareShort_inv {own before : Nat} {dep : Nat → Nat} {H : Bytes → Bytes} {params : PosPara} {file : Bytes}
    {k : Nat} {pr : Prepared} (h : singleUnsealPrepareShort own before dep H params file k = .ok pr) :
    toUnits (readFileShort own file (k * params.blockPl) params.blockPl) params.unitPl = .ok pr.block ∧
    pr.beforeId = (if k ≠ 0 then H (readFileShort before file ((k - 1) * params.blockPl) params.blockPl) else []) ∧
    ∃ n L, div! params.dataL params.blockL = .ok n ∧ idxsLOf params n = .ok L ∧
      (if params.modeL = 0 then do
        let cur ←
         (if k = 0 then pure []
          else
            if params.cntL = 0 then longModeRandom H n pr.beforeId k (k / 10 + 1)
            else longModeRandom H n pr.beforeId k params.cntL : R (List Nat))
        readBlocksShort dep params file cur
      else do
        let cur ← at! L k
        readBlocksShort dep params file cur) = .ok pr.dependBlocks := by
  unfold singleUnsealPrepareShort at h
  simp only [bind_eq_ok] at h
  obtain ⟨blk, h1, n, h2, L, h3, deps, h4, h5⟩ := h
  cases h5
  refine ⟨h1, rfl, n, L, h2, h3, ?_⟩
  simp only at h4 ⊢
  split at h4
  · next hm => rw [if_pos hm]; exact h4
  · next hm => rw [if_neg hm]; exact h4

/-- Preparing a range is preparing its blocks one by one, with the same reads. -/
theorem C115_prepare (own before : Nat → Nat) (dep : Nat → Nat → Nat) (H : Bytes → Bytes) (params : PosPara) (file : Bytes)
    (a b : Nat) (idxs : List Nat) (hidx : blocksIdxOf params.blockPl a b = .ok idxs) (n : Nat) (L : List (List Nat))
    (hn : div! params.dataL params.blockL = .ok n) (hL : idxsLOf params n = .ok L) (pr : Nat → Prepared)
    (h : ∀ k ∈ idxs, singleUnsealPrepareShort (own k) (before k) (dep k) H params file k = .ok (pr k)) :
    batchUnsealPrepareShort own before dep H params file a b = .ok
      { blocksIdx := idxs, blocks := idxs.map (fun k => (pr k).block)
        beforeIds := idxs.map (fun k => (pr k).beforeId)
        dependBlocks := idxs.map (fun k => (pr k).dependBlocks) } := by
  unfold batchUnsealPrepareShort
  rw [hidx, bind_ok]
  have e1 : forEach idxs (fun idx2 res => do
      let buf := readFileShort (own idx2) file (idx2 * params.blockPl) params.blockPl
      let ans ← toUnits buf params.unitPl
      pure (res ++ [ans])) [] = .ok (idxs.map (fun k => (pr k).block)) := by
    have := forEach_collect (f := fun k => toUnits (readFileShort (own k) file (k * params.blockPl) params.blockPl) params.unitPl)
      (l := idxs) (acc := []) (g := fun k => (pr k).block)
      (fun k hk => (singleUnsealPrepareShort_inv (h k hk)).1)
    rw [List.nil_append] at this
    exact this
  rw [e1, bind_ok, hn, bind_ok, hL, bind_ok]
  have e2 : ∀ (l : List Nat) (acc : List Bytes × List (List (List Bytes))),
      (∀ k ∈ l, singleUnsealPrepareShort (own k) (before k) (dep k) H params file k = .ok (pr k)) →
      forEach l (fun idx2 (s : List Bytes × List (List (List Bytes))) => do
        let beforeId :=
          if idx2 ≠ 0 then H (readFileShort (before idx2) file ((idx2 - 1) * params.blockPl) params.blockPl) else []
        let single ←
         (if params.modeL = 0 then do
            let cur ←
             (if idx2 = 0 then pure []
              else
                if params.cntL = 0 then longModeRandom H n beforeId idx2 (idx2 / 10 + 1)
                else longModeRandom H n beforeId idx2 params.cntL : R (List Nat))
            readBlocksShort (dep idx2) params file cur
          else do
            let cur ← at! L idx2
            readBlocksShort (dep idx2) params file cur : R (List (List Bytes)))
        pure (s.1 ++ [beforeId], s.2 ++ [single])) acc =
      .ok (acc.1 ++ l.map (fun k => (pr k).beforeId), acc.2 ++ l.map (fun k => (pr k).dependBlocks)) := by
    intro l
    induction l with
    | nil => intro acc _; simp [forEach]
    | cons k l ih =>
      intro acc hl
      obtain ⟨-, g2, n', L', g3, g4, g5⟩ := singleUnsealPrepareShort_inv (hl k (by simp))
      rw [hn] at g3; cases g3
      rw [hL] at g4; cases g4
      rw [g2] at g5
      rw [forEach_cons]
      simp only [] at g5 ⊢
      rw [g5, bind_ok, pure_eq_ok, bind_ok, ih _ (fun k hk => hl k (by simp [hk]))]
      simp [g2]
  rw [e2 idxs _ h, bind_ok]
  rfl

theorem batchUnsealAndVerifyShort_eq (got : Nat → Nat) (H : Bytes → Bytes) (params : PosPara) (origin : Bytes)
    (idxs : List Nat) (blocks : List (List Bytes)) (ids : List Bytes) (deps : List (List (List Bytes))) (key : Int)
    (iv : Bytes) (n : Nat) (hlt : ∀ k ∈ idxs, k < n) :
    batchUnsealAndVerifyShort got H params origin idxs blocks ids deps key iv =
      batchUnsealAndVerify H params (seenOrigin got origin params.blockL n) idxs blocks ids deps key iv := by
  unfold batchUnsealAndVerifyShort batchUnsealAndVerify
  congr 1
  funext S
  refine forUp_congr fun i hi s => ?_
  cases hk : at! idxs i with
  | error _ => rfl
  | ok k =>
    rw [bind_ok, bind_ok]
    have := seenOrigin_read got origin params.blockL n k (hlt k (List.mem_of_getElem? (at!_eq_ok.mp hk)))
    simp only [this]

/-- `batch_unseal_and_verify` on a well-formed answer, honest or not: it returns normally exactly if every
unit of every decoded block starts with the bytes of the original. -/
theorem C58_exact (H : Bytes → Bytes) (hH : ∀ x, (H x).length = 32) (params : PosPara) (p n c : Nat)
    (cfg : Config params p n c) (hS : ShortModeOk params n c) (iv origin : Bytes) (idxs : List Nat)
    (blocks : List (List Bytes)) (befores : List Bytes) (deps : List (List (List Bytes)))
    (wf : WellFormed params c idxs blocks befores deps) :
    batchUnsealAndVerify H params origin idxs blocks befores deps (p : Int) iv = .ok () ↔
      ∀ i (hi : i < idxs.length), ∃ o, (decodedBlocks (sealingOf H params p c iv (longOf H params n) (shortOf H params n c))
          ((undelay p)^[params.vdeRounds]) iv idxs blocks befores deps)[i]? = some o ∧
        ∀ j < c, ∃ u, o[j]? = some u ∧ params.unitL ≤ u.length ∧ ∀ t < params.unitL,
          u[t]? = some (origin[idxs[i] * params.blockL + j * params.unitL + t]?.getD 0) := by
  obtain ⟨tS, hs, hshort⟩ := shortOf_is hH cfg.c_pos hS
  obtain ⟨w1, w2, w3, w4, w5⟩ := wf
  have hS' : parIdxsS params = .ok tS := by rw [parIdxsS_eq cfg, hs]
  unfold batchUnsealAndVerify
  change (parIdxsS params >>= fun S => _) = _ ↔ _
  rw [hS', bind_ok, forUp_unit_iff, w1]
  refine forall_congr' fun i => forall_congr' fun hi => ?_
  have hbi : i < blocks.length := by omega
  have hbm : blocks[i] ∈ blocks := List.getElem_mem _
  rw [decodedBlocks_get hi]
  have e1 : deps.getD i [] = deps[i]'(by omega) := by
    rw [List.getD_eq_getElem?_getD, List.getElem?_eq_getElem (by omega)]; rfl
  have e2 : befores.getD i [] = befores[i]'(by omega) := by
    rw [List.getD_eq_getElem?_getD, List.getElem?_eq_getElem (by omega)]; rfl
  have e3 : blocks.getD i [] = blocks[i] := by
    rw [List.getD_eq_getElem?_getD, List.getElem?_eq_getElem hbi]; rfl
  have e4 : idxs.getD i 0 = idxs[i] := by
    rw [List.getD_eq_getElem?_getD, List.getElem?_eq_getElem hi]; rfl
  rw [e1, e2, e3, e4]
  have hblk := (batchBlock_eq (H := H) (params := params) (key := (p : Int)) (iv := iv) (idxsS := tS)
      (b := befores[i]'(by omega)) (d := deps[i]'(by omega)) (idx2 := idxs[i]) (blocks := blocks)
      (List.getElem?_eq_getElem _) (List.getElem?_eq_getElem _) (List.getElem?_eq_getElem hi) (List.getElem?_eq_getElem hbi)).trans
    (block_decoded hH cfg (iv := iv) (long := longOf H params n) hshort (w5 _ (List.getElem_mem _)) (w4 _ hbm).1 (w4 _ hbm).2 idxs[i])
  unfold batchBlock at hblk
  rw [at!_of_lt hi, bind_ok, at!_of_lt hbi, bind_ok] at hblk
  rw [at!_of_lt hi, bind_ok, at!_of_lt hbi, bind_ok]
  have step : ∀ out, (forUp params.sealRounds (fun _ s =>
        forUp blocks[i].length (fun j s => do
          let a ← sub! blocks[i].length 1
          let idx1 ← sub! a j
          batchUnit H params (p : Int) iv tS befores deps blocks[i].length i idxs[i] idx1 s) s) blocks[i]) = .ok out →
      ((forUp params.sealRounds (fun _ s =>
        forUp blocks[i].length (fun j s => do
          let a ← sub! blocks[i].length 1
          let idx1 ← sub! a j
          batchUnit H params (p : Int) iv tS befores deps blocks[i].length i idxs[i] idx1 s) s) blocks[i]) >>= fun out =>
        batchVerify origin idxs[i] out params.blockL params.unitL) = batchVerify origin idxs[i] out params.blockL params.unitL := by
    intro out h
    rw [h, bind_ok]
  have step := step _ hblk
  refine Iff.trans (Eq.to_iff (congrArg (· = Except.ok ()) step)) ?_
  rw [C27_accepts_iff origin _ _ _ c cfg.unit_pos cfg.block]
  constructor
  · intro h
    exact ⟨_, rfl, h⟩
  · rintro ⟨o, ho, h⟩
    obtain rfl := Option.some.inj ho
    exact h

/-- A block restored with respect to what is seen of the original. -/
theorem restored_seen (params : PosPara) (got : Nat → Nat) (origin plain : Bytes) (n k : Nat) (hk : k < n) :
    Restored params (seenOrigin got origin params.blockL n) plain k ↔
      ∀ t < params.blockL, plain[k * params.blockL + t]?.getD 0 =
        if t < got k then origin[k * params.blockL + t]?.getD 0 else 0 := by
  unfold Restored
  rw [seenOrigin_read _ _ _ _ _ hk]
  constructor
  · intro h t ht
    have := congrArg (fun l => l[t]?) h
    simp only [readFile_getElem?, if_pos ht, (C95_read _ _ _ _).2.1 t ht] at this
    exact Option.some.inj this
  · intro h
    apply List.ext_getElem?
    intro t
    by_cases ht : t < params.blockL
    · rw [readFile_getElem?, if_pos ht, (C95_read _ _ _ _).2.1 t ht, h t ht]
    · rw [readFile_getElem?, if_neg ht, List.getElem?_eq_none (by rw [(C95_read _ _ _ _).1]; omega)]

/-- A range of an arbitrary file, prepared and checked when the reads of the sealed file return `own`,
`before` and `dep` bytes and those of the original `got`: preparing succeeds, and `batch_unseal_and_verify`
returns normally exactly if unsealing the file with the same reads and compressing the result gives, of
every block of the range, what the verifier sees of the original. -/
theorem C115_range (own before : Nat → Nat) (dep : Nat → Nat → Nat) (H : Bytes → Bytes)
    (hH : ∀ x, (H x).length = 32) (params : PosPara) (p n c : Nat) (cfg : Config params p n c) (hL : params.modeL = 0)
    (hS : ShortModeOk params n c) (hn : LongCountOk n params.cntL) (iv file : Bytes)
    (hlen : n * params.blockPl ≤ file.length) :
    ∃ out plain, unsealFileShort own before dep H params file (p : Int) iv = .ok out ∧
      copyAndCompress out params.dataL params.unitL params.unitPl = .ok plain ∧ plain.length = params.dataL ∧
      ∀ (got : Nat → Nat) (origin : Bytes) (a b : Nat), params.blockPl ∣ a → b ≤ n * params.blockPl →
        ∃ bp, batchUnsealPrepareShort own before dep H params file a b = .ok bp ∧ bp.blocksIdx.Pairwise (· < ·) ∧
          (∀ k, k ∈ bp.blocksIdx ↔ ∃ x, a ≤ x ∧ x < b ∧ x / params.blockPl = k) ∧
          (batchUnsealAndVerifyShort got H params origin bp.blocksIdx bp.blocks bp.beforeIds bp.dependBlocks (p : Int) iv = .ok () ↔
            ∀ k ∈ bp.blocksIdx, ∀ t < params.blockL, plain[k * params.blockL + t]?.getD 0 =
              if t < got k then origin[k * params.blockL + t]?.getD 0 else 0) := by
  have hLok : LongModeOk params n := ⟨fun _ => hn, fun h => by omega, fun h => by omega⟩
  obtain ⟨out, ho1, hdecoded⟩ := short_decoded own before dep hH cfg hL hS hn iv file hlen
  obtain ⟨plain, hcomp, hpl, hcmp⟩ := restored_cmp cfg out
  refine ⟨out, plain, ho1, hcomp, hpl, fun got origin a b ha hb => ?_⟩
  have hpos : 0 < params.blockPl := by
    rw [cfg.block_pl, cfg.unit_pl]; exact Nat.mul_pos cfg.c_pos (by omega)
  obtain ⟨idxs, h1, h2, h3⟩ := C25_aligned_range params.blockPl a b hpos ha
  have hlt : ∀ k ∈ idxs, k < n := by
    intro k hk
    obtain ⟨x, -, hx, rfl⟩ := (h3 k).mp hk
    exact (Nat.div_lt_iff_lt_mul hpos).mpr (by omega)
  obtain ⟨L, hL', -⟩ := longSel hH hLok
  have hp := C115_prepare own before dep H params file a b idxs h1 n L cfg.div hL' (cutPrepared own before dep H params n c file)
    (fun k hk => C113_prepare _ _ _ H hH params p n c cfg hLok file k (hlt k hk) _ rfl)
  refine ⟨_, hp, h2, h3, ?_⟩
  obtain ⟨wf, hdec⟩ := hdecoded idxs hlt
  rw [batchUnsealAndVerifyShort_eq got H params origin idxs _ _ _ _ _ n hlt,
    C58_exact H hH params p n c cfg hS iv _ idxs _ _ _ wf, hdec, hcmp _ idxs hlt]
  exact forall_congr' fun k => forall_congr' fun hk => restored_seen params got origin plain n k (hlt k hk)

/-- The first ten blocks: `test_unseal_single_and_verify` on an arbitrary sealed file, sequentially and in
parallel under every complete schedule. -/
theorem C115_single (own before : Nat → Nat) (dep : Nat → Nat → Nat) (H : Bytes → Bytes)
    (hH : ∀ x, (H x).length = 32) (params : PosPara) (p n c : Nat) (cfg : Config params p n c) (hL : params.modeL = 0)
    (hS : ShortModeOk params n c) (hn : LongCountOk n params.cntL) (h10 : 10 ≤ n) (pub iv file : Bytes)
    (hload : loadData pub = .ok ((p : Int), iv)) (hlen : n * params.blockPl ≤ file.length) :
    ∃ out plain bp, unsealFileShort own before dep H params file (p : Int) iv = .ok out ∧
      copyAndCompress out params.dataL params.unitL params.unitPl = .ok plain ∧ plain.length = params.dataL ∧
      batchUnsealPrepareShort own before dep H params file 0 (10 * params.blockPl) = .ok bp ∧
      ∀ (got : Nat → Nat) (origin : Bytes) (un : Option Bytes),
        (∀ sched, unsealSingleAndVerifyShort own before got dep H params ⟨some origin, some file, un, some pub⟩ 0 sched =
            .ok (some ()) ↔
          ∀ k < 10, ∀ t < params.blockL, plain[k * params.blockL + t]?.getD 0 =
            if t < got k then origin[k * params.blockL + t]?.getD 0 else 0) ∧
        ∀ workers sched outs, 0 < workers →
          batchUnsealParallel H params bp.blocksIdx bp.blocks bp.beforeIds bp.dependBlocks (p : Int) iv workers sched =
            .ok (some outs) →
          (unsealSingleAndVerifyShort own before got dep H params ⟨some origin, some file, un, some pub⟩ workers sched =
              .ok (some ()) ↔
            ∀ k < 10, ∀ t < params.blockL, plain[k * params.blockL + t]?.getD 0 =
              if t < got k then origin[k * params.blockL + t]?.getD 0 else 0) := by
  have hLok : LongModeOk params n := ⟨fun _ => hn, fun h => by omega, fun h => by omega⟩
  obtain ⟨out, ho1, hdecoded⟩ := short_decoded own before dep hH cfg hL hS hn iv file hlen
  obtain ⟨plain, hcomp, hpl, hcmp⟩ := restored_cmp cfg out
  have hpos : 0 < params.blockPl := by
    rw [cfg.block_pl, cfg.unit_pl]; exact Nat.mul_pos cfg.c_pos (by omega)
  obtain ⟨idxs, h1, h2, h3⟩ := C25_aligned_range params.blockPl 0 (10 * params.blockPl) hpos (Nat.dvd_zero _)
  have h3' : ∀ k, k ∈ idxs ↔ k < 10 := by
    intro k
    rw [h3]
    constructor
    · rintro ⟨x, -, hx, rfl⟩
      exact (Nat.div_lt_iff_lt_mul hpos).mpr hx
    · intro hk
      exact ⟨k * params.blockPl, Nat.zero_le _, Nat.mul_lt_mul_of_pos_right hk hpos, Nat.mul_div_cancel _ hpos⟩
  have hlt : ∀ k ∈ idxs, k < n := fun k hk => by have := (h3' k).mp hk; omega
  obtain ⟨L, hL', -⟩ := longSel hH hLok
  have hp := C115_prepare own before dep H params file 0 (10 * params.blockPl) idxs h1 n L cfg.div hL'
    (cutPrepared own before dep H params n c file)
    (fun k hk => C113_prepare _ _ _ H hH params p n c cfg hLok file k (hlt k hk) _ rfl)
  obtain ⟨wf, hdec⟩ := hdecoded idxs hlt
  refine ⟨out, plain, _, ho1, hcomp, hpl, hp, fun got origin un => ?_⟩
  have hseq := C81_batch_exact H hH params p n c cfg hS.units iv idxs _ _ _ wf
  rw [decodedBlocks_congr (shortOf_agree hS), hdec] at hseq
  have hfin : (forUp idxs.length (fun i (_ : Unit) => do
        let k ← at! idxs i
        let b ← at! (idxs.map (plainUnits params c out)) i
        batchVerifyShort (got k) origin k b params.blockL params.unitL) () = .ok ()) ↔
      ∀ k < 10, ∀ t < params.blockL, plain[k * params.blockL + t]?.getD 0 =
        if t < got k then origin[k * params.blockL + t]?.getD 0 else 0 := by
    rw [forUp_unit_iff (f := fun i => do
        let k ← at! idxs i
        let b ← at! (idxs.map (plainUnits params c out)) i
        batchVerifyShort (got k) origin k b params.blockL params.unitL)]
    have := hcmp (seenOrigin got origin params.blockL n) idxs hlt
    refine Iff.trans ?_ (this.trans ?_)
    · refine forall_congr' fun i => forall_congr' fun hi => ?_
      rw [at!_of_lt hi, bind_ok, bind_eq_ok]
      refine exists_congr fun o => ?_
      rw [at!_eq_ok, ← C27_accepts_iff _ _ _ _ c cfg.unit_pos cfg.block]
      unfold batchVerifyShort batchVerify
      rw [seenOrigin_read _ _ _ _ _ (hlt _ (List.getElem_mem hi))]
    · constructor
      · intro h k hk
        exact (restored_seen params got origin plain n k (by omega)).mp (h k ((h3' k).mpr hk))
      · intro h k hk
        exact (restored_seen params got origin plain n k (hlt k hk)).mpr (h k ((h3' k).mp hk))
  constructor
  · intro sched
    rw [← hfin]
    unfold unsealSingleAndVerifyShort
    simp only [openFile, bind_ok, hload, Nat.zero_mul, hp, if_true, hseq, pure_eq_ok]
    constructor
    · intro h
      obtain ⟨u, hu, -⟩ := bind_eq_ok.mp h
      exact hu
    · intro h
      exact bind_eq_ok.mpr ⟨(), h, rfl⟩
  · intro workers sched outs hw hpar
    have hex := C81_parallel_exact H hH params p n c cfg hS iv idxs _ _ _ wf workers sched outs hpar
    rw [hdec] at hex
    subst hex
    rw [← hfin]
    unfold unsealSingleAndVerifyShort
    simp only [openFile, bind_ok, hload, Nat.zero_mul, hp, if_neg (show workers ≠ 0 by omega), hpar]
    constructor
    · intro h
      obtain ⟨u, hu, -⟩ := bind_eq_ok.mp h
      exact hu
    · intro h
      exact bind_eq_ok.mpr ⟨(), h, rfl⟩

/-! ### The Merkle check and whole runs -/

/-- `merkle_tree_proof` with short reads compares what the reads return, filled up with zeros: it behaves
as on any two files that hold these bytes. -/
theorem C115_merkle (gotO gotU : Nat → Nat) (Hs : Bytes → Bytes) (origin unsealed o' u' : Bytes) (n blockL leavesCount : Nat)
    (hb : 0 < blockL) (draw : Nat → Nat) (fuel : Nat)
    (ho : ∀ i < n, ∀ t < blockL, o'[(i + 1) * blockL + t]?.getD 0 =
      if t < gotO (i * blockL) then origin[(i + 1) * blockL + t]?.getD 0 else 0)
    (hu : ∀ i < n, ∀ t < blockL, u'[(i + 1) * blockL + t]?.getD 0 =
      if t < gotU (i * blockL) then unsealed[(i + 1) * blockL + t]?.getD 0 else 0) :
    merkleTreeProofShort gotO gotU Hs origin unsealed (n * blockL) blockL leavesCount draw fuel =
      merkleTreeProof Hs o' u' (n * blockL) blockL leavesCount draw fuel := by
  have hcnt : (n * blockL + blockL - 1) / blockL = n := by
    rw [Nat.add_sub_assoc hb, Nat.add_comm, Nat.add_mul_div_right _ _ hb, Nat.div_eq_of_lt (by omega), Nat.zero_add]
  have e : ∀ (got : Nat → Nat) (f f' : Bytes), (∀ i < n, ∀ t < blockL, f'[(i + 1) * blockL + t]?.getD 0 =
        if t < got (i * blockL) then f[(i + 1) * blockL + t]?.getD 0 else 0) →
      generateMerkleTreeFromFileShort got Hs f (n * blockL) blockL = generateMerkleTreeFromFile Hs f' (n * blockL) blockL := by
    intro got f f' h
    rw [← (C113_complete Hs Hs (genPosdata 0)).2.2.2 (fun _ => blockL) f' (n * blockL) blockL (fun _ => Nat.le_refl _),
      C113_merkle got Hs f _ _ hb, C113_merkle _ Hs f' _ _ hb, hcnt]
    congr 1
    refine List.map_congr_left fun i hi => List.map_congr_left fun t ht => ?_
    rw [if_pos (List.mem_range.mp ht), h i (List.mem_range.mp hi) t (List.mem_range.mp ht)]
  unfold merkleTreeProofShort merkleTreeProof
  rw [e gotO origin o' ho, e gotU unsealed u' hu]
  rfl

/-- The same file read twice: the check accepts if the bytes that only one of the two passes returned are
zeros, and if it accepts they are, unless the reads have hit a collision. -/
theorem C115_merkle_same (gotO gotU : Nat → Nat) (Hs : Bytes → Bytes) (hHs : ∀ x, (Hs x).length = 32) (file o' u' : Bytes)
    (n blockL leavesCount : Nat) (hb : 0 < blockL) (hc : 0 < leavesCount) (draw : Nat → Nat) (fuel : Nat) (indices : List Nat)
    (hch : createChallenges draw leavesCount 0 n fuel = .ok (some indices))
    (hol : o'.length = (n + 1) * blockL) (hul : u'.length = (n + 1) * blockL)
    (ho : ∀ i < n, ∀ t < blockL, o'[(i + 1) * blockL + t]? =
      some (if t < gotO (i * blockL) then file[(i + 1) * blockL + t]?.getD 0 else 0))
    (hu : ∀ i < n, ∀ t < blockL, u'[(i + 1) * blockL + t]? =
      some (if t < gotU (i * blockL) then file[(i + 1) * blockL + t]?.getD 0 else 0)) :
    ((∀ i < n, ∀ t < blockL, (gotO (i * blockL) ≤ t ∧ t < gotU (i * blockL) ∨ gotU (i * blockL) ≤ t ∧ t < gotO (i * blockL)) →
        file[(i + 1) * blockL + t]?.getD 0 = 0) →
      merkleTreeProofShort gotO gotU Hs file file (n * blockL) blockL leavesCount draw fuel = .ok (some ())) ∧
    (merkleTreeProofShort gotO gotU Hs file file (n * blockL) blockL leavesCount draw fuel = .ok (some ()) →
      ∃ l tree l' tree' root,
        generateMerkleTreeFromFile Hs u' (n * blockL) blockL = .ok (l, tree, root) ∧
        generateMerkleTreeFromFile Hs o' (n * blockL) blockL = .ok (l', tree', root) ∧
        (Collides Hs (innerStrings tree.layers) (innerStrings tree'.layers) ∨
          Collides Hs (leafContents u' (n * blockL) blockL) (leafContents o' (n * blockL) blockL) ∨
          ∀ i < n, ∀ t < blockL, (gotO (i * blockL) ≤ t ∧ t < gotU (i * blockL) ∨ gotU (i * blockL) ≤ t ∧ t < gotO (i * blockL)) →
            file[(i + 1) * blockL + t]?.getD 0 = 0)) := by
  have heq := C115_merkle gotO gotU Hs file file o' u' n blockL leavesCount hb draw fuel
    (fun i hi t ht => by rw [ho i hi t ht]; rfl) (fun i hi t ht => by rw [hu i hi t ht]; rfl)
  rw [heq]
  constructor
  · intro h
    refine C70_complete Hs hHs o' u' n blockL leavesCount hb hc draw fuel ?_ indices hch
    apply List.ext_getElem?
    intro x
    rw [List.getElem?_drop, List.getElem?_drop]
    by_cases hx : x < n * blockL
    · have hi : x / blockL < n := (Nat.div_lt_iff_lt_mul hb).mpr hx
      have ht := Nat.mod_lt x hb
      have e : blockL + x = (x / blockL + 1) * blockL + x % blockL := by
        have := Nat.div_add_mod' x blockL
        rw [Nat.add_mul, Nat.one_mul]; omega
      rw [e, hu _ hi _ ht, ho _ hi _ ht]
      have h := h _ hi _ ht
      congr 1
      split <;> split
      · rfl
      · exact h (Or.inl ⟨by omega, by omega⟩)
      · exact (h (Or.inr ⟨by omega, by omega⟩)).symm
      · rfl
    · rw [Nat.add_mul, Nat.one_mul] at hol hul
      exact (List.getElem?_eq_none (by omega)).trans (List.getElem?_eq_none (by omega)).symm
  · intro h
    obtain ⟨l, tree, l', tree', root, g1, g2, g3⟩ := C70_sound Hs hHs o' u' n blockL _ hb draw fuel h
    refine ⟨l, tree, l', tree', root, g1, g2, g3.imp id (fun g3 => g3.imp id fun g3 i hi t ht hg => ?_)⟩
    have hle : (i + 1 + 1) * blockL ≤ (n + 1) * blockL := Nat.mul_le_mul_right _ (by omega)
    rw [Nat.add_mul (i + 1), Nat.one_mul] at hle
    have hge : 1 * blockL ≤ (i + 1) * blockL := Nat.mul_le_mul_right _ (by omega)
    have := g3 ((i + 1) * blockL + t) (by omega) (by omega)
    rw [ho i hi t ht, hu i hi t ht] at this
    simp only [Option.getD_some] at this
    rcases hg with ⟨a, b⟩ | ⟨a, b⟩
    · rw [if_pos b, if_neg (by omega)] at this; exact this
    · rw [if_neg (by omega), if_pos b] at this; exact this.symm

/-- What `copy_and_pad` sees of the original. -/
def seenUnits (got : Nat → Nat) (origin : Bytes) (dataL unitL : Nat) : Bytes :=
  (List.range (dataL / unitL)).flatMap (fun i =>
    (List.range unitL).map (fun t => if t < got i then origin[i * unitL + t]?.getD 0 else 0))

theorem seenUnits_read (got : Nat → Nat) (origin : Bytes) (dataL unitL i : Nat) (hi : i < dataL / unitL) :
    readFile (seenUnits got origin dataL unitL) (i * unitL) unitL =
      (List.range unitL).map (fun t => if t < got i then origin[i * unitL + t]?.getD 0 else 0) := by
  have := flatten_drop_take ((List.range (dataL / unitL)).map (fun i =>
    (List.range unitL).map (fun t => if t < got i then origin[i * unitL + t]?.getD 0 else 0))) unitL i
    (by simpa using hi) (by
      intro u hu
      obtain ⟨i, -, rfl⟩ := List.mem_map.mp hu
      simp) []
  rw [List.append_nil, List.getElem_map, List.getElem_range, ← List.flatMap_def] at this
  exact this

theorem seenUnits_byte (got : Nat → Nat) (origin : Bytes) (dataL unitL x : Nat) (hu : 0 < unitL) (hd : unitL ∣ dataL)
    (hx : x < dataL) : (seenUnits got origin dataL unitL)[x]?.getD 0 =
      if x % unitL < got (x / unitL) then origin[x]?.getD 0 else 0 := by
  have hi : x / unitL < dataL / unitL := by
    rw [Nat.div_lt_iff_lt_mul hu, Nat.div_mul_cancel hd]; exact hx
  have h := congrArg (fun l => l[x % unitL]?) (seenUnits_read got origin dataL unitL _ hi)
  have hm := Nat.mod_lt x hu
  simp only [readFile_getElem?, if_pos hm, List.getElem?_map, List.getElem?_range hm, Option.map_some] at h
  rw [Nat.div_add_mod'] at h
  exact Option.some.inj h

theorem seenUnits_length (got : Nat → Nat) (origin : Bytes) (dataL unitL : Nat) (hd : unitL ∣ dataL) :
    (seenUnits got origin dataL unitL).length = dataL := by
  unfold seenUnits
  rw [List.length_flatMap]
  simp [Nat.div_mul_cancel hd]

theorem copyAndPadShort_seen (got : Nat → Nat) (origin : Bytes) (dataL unitL : Nat) (hu : 0 < unitL) :
    copyAndPadShort got origin dataL unitL = copyAndPad (seenUnits got origin dataL unitL) dataL unitL := by
  rw [← copyAndPadShort_full (got := fun _ => unitL) (fun _ => Nat.le_refl _), C95_pad _ _ _ _ hu, C95_pad _ _ _ _ hu]
  congr 1
  rw [List.flatMap_def, List.flatMap_def]
  congr 1
  refine List.map_congr_left fun i hi => ?_
  congr 1
  have h := seenUnits_read got origin dataL unitL i (List.mem_range.mp hi)
  rw [← h]
  apply List.ext_getElem?
  intro t
  rw [readFile_getElem?, List.getElem?_map]
  by_cases ht : t < unitL
  · rw [if_pos ht, List.getElem?_range ht]
    simp only [Option.map_some, if_pos ht]
  · rw [if_neg ht, List.getElem?_eq_none (by simp; omega)]; rfl

/-- Only the reads of `copy_and_pad` are short.  The run goes on without notice and the unsealed file is
the original with zeros for the bytes that were not returned.  The challenge at the end accepts if all
the lost bytes beyond the first block are zeros; if it accepts they are, unless there is a collision. -/
theorem C115_lost (H Hs : Bytes → Bytes) (hH : ∀ x, (H x).length = 32) (hHs : ∀ x, (Hs x).length = 32) (l : Nat) (d : Disk)
    (ch : RunChoices) (par : Nat) (rd : RunReads)
    (h2 : ∀ k, (genPosdata l).blockPl ≤ rd.sealOwn k) (h3 : ∀ k m, (genPosdata l).blockPl ≤ rd.sealDep k m)
    (h4 : ∀ k, (genPosdata l).blockPl ≤ rd.unsealOwn k) (h5 : ∀ k, (genPosdata l).blockPl ≤ rd.unsealBefore k)
    (h6 : ∀ k m, (genPosdata l).blockPl ≤ rd.unsealDep k m) (h7 : ∀ i, (genPosdata l).unitPl ≤ rd.compress i)
    (h8 : ∀ i, (genPosdata l).blockL ≤ rd.treeOrigin i) (h9 : ∀ i, (genPosdata l).blockL ≤ rd.treeUnsealed i)
    (origin seen padded : Bytes) (horigin : origin = createRandomFile ch.originRng (genPosdata l).dataL)
    (hseen : seen = (List.range ((genPosdata l).dataL / (genPosdata l).unitL)).flatMap (fun i =>
      (List.range (genPosdata l).unitL).map (fun t =>
        if t < rd.pad i then origin[i * (genPosdata l).unitL + t]?.getD 0 else 0)))
    (hpad : copyAndPadShort rd.pad origin (genPosdata l).dataL (genPosdata l).unitL = .ok padded)
    (hz : NoZeroInput H (genPosdata l) padded P_512 ((List.range 128).map ch.ivRng))
    (hfin : ∃ s, createChallenges ch.draw (genPosdata l).leavesToProveCount 0 256 ch.fuel = .ok (some s)) :
    ∃ pub, loadData pub = .ok (P_512, (List.range 128).map ch.ivRng) ∧
      (∀ flags : Flags, flags.shouldSeal = true → flags.shouldUnseal = true → flags.shouldChallengeLeaves = false →
        flags.shouldUnsealSingle = false →
        testPostorageShort rd H Hs (genPosdata l) flags par ch d = .ok (some ⟨some origin, some padded, some seen, some pub⟩)) ∧
      ((∀ x, (genPosdata l).blockL ≤ x → x < (genPosdata l).dataL →
          rd.pad (x / (genPosdata l).unitL) ≤ x % (genPosdata l).unitL → origin[x]?.getD 0 = 0) →
        testPostorageShort rd H Hs (genPosdata l) ⟨true, true, true, false⟩ par ch d =
          .ok (some ⟨some origin, some padded, some seen, some pub⟩)) ∧
      (∀ d', testPostorageShort rd H Hs (genPosdata l) ⟨true, true, true, false⟩ par ch d = .ok (some d') →
        d' = ⟨some origin, some padded, some seen, some pub⟩ ∧ ∃ ls tree l' tree' root,
          generateMerkleTreeFromFile Hs seen (genPosdata l).dataL (genPosdata l).blockL = .ok (ls, tree, root) ∧
          generateMerkleTreeFromFile Hs origin (genPosdata l).dataL (genPosdata l).blockL = .ok (l', tree', root) ∧
          (Collides Hs (innerStrings tree.layers) (innerStrings tree'.layers) ∨
            Collides Hs (leafContents seen (genPosdata l).dataL (genPosdata l).blockL)
              (leafContents origin (genPosdata l).dataL (genPosdata l).blockL) ∨
            ∀ x, (genPosdata l).blockL ≤ x → x < (genPosdata l).dataL →
              rd.pad (x / (genPosdata l).unitL) ≤ x % (genPosdata l).unitL → origin[x]?.getD 0 = 0)) := by
  obtain ⟨c, hc, cfg, hL, hS⟩ := genPosdata_config l _ prime_P_512 (by norm_num) (by norm_num) (by norm_num)
  have hseen' : seen = seenUnits rd.pad origin (genPosdata l).dataL (genPosdata l).unitL := hseen
  have hdvd : (genPosdata l).unitL ∣ (genPosdata l).dataL := by
    rw [cfg.data, cfg.block]; exact ⟨256 * c, by ring⟩
  have hsl : seen.length = (genPosdata l).dataL := by rw [hseen']; exact seenUnits_length _ _ _ _ hdvd
  have hol : origin.length = (genPosdata l).dataL := by rw [horigin]; simp [createRandomFile]
  rw [copyAndPadShort_seen _ _ _ _ cfg.unit_pos, ← hseen'] at hpad
  obtain ⟨pub, g1, g2⟩ := C71_with_unseal H hH l { d with origin := some seen } seen padded rfl hsl ch.ivRng hpad hz
  have gs : sealAndUnsealShort rd H (genPosdata l)
      { d with origin := some (createRandomFile ch.originRng (genPosdata l).dataL) } ch.ivRng true =
      .ok ⟨some origin, some padded, some seen, some pub⟩ := by
    rw [← horigin]
    unfold sealAndUnseal at g1
    simp only [openFile, bind_ok, hpad, if_true] at g1
    unfold sealAndUnsealShort
    simp only [openFile, bind_ok, copyAndPadShort_seen _ _ _ _ cfg.unit_pos, ← hseen', hpad, if_true,
      sealFileShort_full h2 h3, unsealFileShort_full h4 h5 h6, (C113_complete H Hs (genPosdata l)).1 _ _ _ _ _ h7]
    obtain ⟨st, k1, g1⟩ := bind_eq_ok.mp g1
    rw [k1, bind_ok]
    obtain ⟨pl, k2, g1⟩ := bind_eq_ok.mp g1
    rw [k2, bind_ok]
    obtain ⟨o, k3, g1⟩ := bind_eq_ok.mp g1
    rw [k3, bind_ok]
    cases g1
    rfl
  refine ⟨pub, g2, fun flags f1 f2 f3 f4 => ?_, ?_⟩
  · unfold testPostorageShort
    rw [f1, f2, f3, f4]
    simp only [if_true, gs, bind_ok, Bool.false_eq_true, if_false]
    rfl
  obtain ⟨s, hs⟩ := hfin
  have hbl : 0 < (genPosdata l).blockL := by
    rw [cfg.block]; exact Nat.mul_pos cfg.c_pos cfg.unit_pos
  have hcount : 0 < (genPosdata l).leavesToProveCount := by
    unfold genPosdata; split
    · norm_num
    · split
      · norm_num
      · split <;> norm_num
  have hrun : testPostorageShort rd H Hs (genPosdata l) ⟨true, true, true, false⟩ par ch d =
      (merkleTreeProof Hs origin seen (genPosdata l).dataL (genPosdata l).blockL (genPosdata l).leavesToProveCount ch.draw ch.fuel >>=
        fun a => match a with
          | none => pure none
          | some () => pure (some ⟨some origin, some padded, some seen, some pub⟩)) := by
    unfold testPostorageShort
    simp only [if_true, gs, bind_ok, Bool.false_eq_true, if_false]
    rw [show (pure (some ()) : R (Option Unit)) = .ok (some ()) from rfl, bind_ok]
    simp only [openFile, bind_ok, merkleTreeProofShort_full h8 h9]
    rfl
  have hbyte : ∀ x < (genPosdata l).dataL, seen[x]?.getD 0 =
      if x % (genPosdata l).unitL < rd.pad (x / (genPosdata l).unitL) then origin[x]?.getD 0 else 0 := by
    intro x hx
    rw [hseen']
    exact seenUnits_byte _ _ _ _ _ cfg.unit_pos hdvd hx
  rw [hrun]
  constructor
  · intro h
    have hm := C70_complete Hs hHs origin seen 256 (genPosdata l).blockL _ hbl hcount ch.draw ch.fuel (by
      apply List.ext_getElem?
      intro x
      rw [List.getElem?_drop, List.getElem?_drop]
      by_cases hx : (genPosdata l).blockL + x < (genPosdata l).dataL
      · have hb := hbyte _ hx
        rw [List.getElem?_eq_getElem (by omega), List.getElem?_eq_getElem (by omega), Option.getD_some, Option.getD_some] at hb
        rw [List.getElem?_eq_getElem (by omega), List.getElem?_eq_getElem (by omega), hb]
        split
        · rfl
        · next hlt =>
          have h := h _ (by omega) hx (by omega)
          rw [List.getElem?_eq_getElem (by omega), Option.getD_some] at h
          rw [h]
      · exact (List.getElem?_eq_none (by omega)).trans (List.getElem?_eq_none (by omega)).symm) s hs
    rw [← cfg.data] at hm
    rw [hm, bind_ok]
    rfl
  · intro d' h
    obtain ⟨a, ha, h⟩ := bind_eq_ok.mp h
    cases a with
    | none => cases h
    | some u =>
      cases h
      refine ⟨rfl, ?_⟩
      have hd := cfg.data
      rw [hd] at ha
      obtain ⟨ls, tree, l', tree', root, k1, k2, k3⟩ := C70_sound Hs hHs origin seen 256 _ _ hbl _ _ ha
      rw [← hd] at k1 k2 k3
      refine ⟨ls, tree, l', tree', root, k1, k2, k3.imp id (fun k3 => k3.imp id fun k3 x hx1 hx2 hx3 => ?_)⟩
      have := k3 x hx1 (by rw [Nat.add_mul, ← hd]; omega)
      rw [hbyte x hx2, if_neg (by omega)] at this
      exact this.symm

/-! ### Concrete runs -/

/-- Meets the hypotheses of `C58_exact`, `C115_prepare`, `C115_range` (configuration as in `C113_round`): three
blocks sealed and kept properly, blocks 1 and 2 prepared.  With complete reads they are accepted; when the
read of the block before block 1 returns 63 of 64 bytes, or that of block 2 of the original 62 of 63, they
are rejected; short reads for block 0, which is not in the range, change nothing. -/
example : (match copyAndPad (toyFile 189) 189 63 with
    | .ok padded => (match sealFile toyHash (toyParams 3 1 0 0 1 1 1) padded P_512 [1, 2, 3] with
      | .ok st =>
        let check := fun (before got : Nat → Nat) => do
          let bp ← batchUnsealPrepareShort (fun _ => 64) before (fun _ _ => 64) toyHash (toyParams 3 1 0 0 1 1 1) st.file 64 192
          batchUnsealAndVerifyShort got toyHash (toyParams 3 1 0 0 1 1 1) (toyFile 189) bp.blocksIdx bp.blocks
            bp.beforeIds bp.dependBlocks P_512 [1, 2, 3]
        decide (3 * 64 ≤ st.file.length
          ∧ check (fun _ => 64) (fun _ => 63) = .ok ()
          ∧ check (fun k => if k = 1 then 63 else 64) (fun _ => 63) = .error .assertion
          ∧ check (fun _ => 64) (fun k => if k = 2 then 62 else 63) = .error .assertion
          ∧ check (fun k => if k = 0 then 5 else 64) (fun k => if k = 0 then 5 else 63) = .ok ())
      | .error _ => false)
    | .error _ => false) = true := by decide +kernel

/-- Meets the hypotheses of `C115_single`: ten blocks of one unit; the check of the first ten blocks
with complete reads, with 60 of 64 bytes of block 4 of the sealed file, and with 60 of 63 bytes of block 4
of the original. -/
example : (match sealAndUnseal toyHash (toyParams 10 1 0 0 0 1 1) ⟨some (toyFile 630), none, none, none⟩
      (fun i => UInt8.ofNat i) false with
    | .ok d => decide (
        unsealSingleAndVerifyShort (fun _ => 64) (fun _ => 64) (fun _ => 63) (fun _ _ => 64) toyHash
          (toyParams 10 1 0 0 0 1 1) d 0 [] = .ok (some ()) ∧
        unsealSingleAndVerifyShort (fun k => if k = 4 then 60 else 64) (fun _ => 64) (fun _ => 63) (fun _ _ => 64) toyHash
          (toyParams 10 1 0 0 0 1 1) d 0 [] = .error .assertion ∧
        unsealSingleAndVerifyShort (fun _ => 64) (fun _ => 64) (fun k => if k = 4 then 60 else 63) (fun _ _ => 64) toyHash
          (toyParams 10 1 0 0 0 1 1) d 0 [] = .error .assertion)
    | _ => false) = true := by decide +kernel

/-- Meets the hypotheses of `C115_merkle` and `C115_merkle_same`: three leaves of two bytes, the leaf at
offset 2 read short in one pass; then in a file that holds a zero there. -/
example : createChallenges (fun _ => 0) 1 0 3 1 = .ok (some [0]) ∧
    merkleTreeProofShort (fun _ => 2) (fun i => if i = 2 then 1 else 2) toyHash [1, 2, 3, 4, 5, 6, 7, 8] [1, 2, 3, 4, 5, 6, 7, 8]
      6 2 1 (fun _ => 0) 1 = .error .assertion ∧
    merkleTreeProof toyHash [1, 2, 3, 4, 5, 6, 7, 8] [1, 2, 3, 4, 5, 0, 7, 8] 6 2 1 (fun _ => 0) 1 = .error .assertion ∧
    merkleTreeProofShort (fun _ => 2) (fun i => if i = 2 then 1 else 2) toyHash [1, 2, 3, 4, 5, 0, 7, 8] [1, 2, 3, 4, 5, 0, 7, 8]
      6 2 1 (fun _ => 0) 1 = .ok (some ()) := by decide +kernel

/-- The runs of `C115_lost` and `C115_complete` with three blocks of one unit: with complete reads the data
comes back; when `copy_and_pad` gets 60 of 63 bytes of block 0, the run is accepted although the unsealed
file is not the original; when it gets 60 of 63 bytes of block 1, the challenge of the leaves notices. -/
example :
    let reads : (Nat → Nat) → RunReads := fun pad => ⟨pad, fun _ => 64, fun _ _ => 64, fun _ => 64, fun _ => 64, fun _ _ => 64,
      fun _ => 64, fun _ => 64, fun _ => 64, fun _ _ => 64, fun _ => 63, fun _ => 63, fun _ => 63⟩
    let run := fun pad => testPostorageShort (reads pad) toyHash toyHash (toyParams 3 1 0 0 0 1 1) ⟨true, true, true, false⟩ 0
      ⟨fun i => UInt8.ofNat (i * 7 + 1), fun i => UInt8.ofNat i, [], fun i => i % 3, 5⟩ ⟨none, none, none, none⟩
    (match run (fun _ => 63), run (fun i => if i = 0 then 60 else 63) with
    | .ok (some d), .ok (some d') => decide (d.unsealed = d.origin ∧ d'.origin = d.origin ∧
        d'.unsealed = d.origin.map (fun s => s.take 60 ++ [0, 0, 0] ++ s.drop 63) ∧ d'.unsealed ≠ d'.origin ∧
        run (fun i => if i = 1 then 60 else 63) = .error .assertion)
    | _, _ => false) = true := by decide +kernel

/-- A run that seals, under any short reads whatsoever: it does not panic, and its files are those of its four
parts, each with the reads of that part. -/
theorem C115_run (H Hs : Bytes → Bytes) (hH : ∀ x, (H x).length = 32) (l : Nat) (d : Disk) (ch : RunChoices) (par : Nat)
    (rd : RunReads) (origin : Bytes) (horigin : origin = createRandomFile ch.originRng (genPosdata l).dataL) :
    ∃ padded st plain out pub,
      copyAndPadShort rd.pad origin (genPosdata l).dataL (genPosdata l).unitL = .ok padded ∧
      sealFileShort rd.sealOwn rd.sealDep H (genPosdata l) padded P_512 ((List.range 128).map ch.ivRng) = .ok st ∧
      unsealFileShort rd.unsealOwn rd.unsealBefore rd.unsealDep H (genPosdata l) st.file P_512 ((List.range 128).map ch.ivRng) =
        .ok plain ∧
      copyAndCompressShort rd.compress plain (genPosdata l).dataL (genPosdata l).unitL (genPosdata l).unitPl = .ok out ∧
      loadData pub = .ok (P_512, (List.range 128).map ch.ivRng) ∧
      testPostorageShort rd H Hs (genPosdata l) ⟨true, true, false, false⟩ par ch d =
        .ok (some ⟨some origin, some plain, some out, some pub⟩) ∧
      testPostorageShort rd H Hs (genPosdata l) ⟨true, false, false, false⟩ par ch d =
        .ok (some ⟨some origin, some st.file, d.unsealed, some pub⟩) := by
  obtain ⟨c, hc, cfg, hL0, hS0⟩ := genPosdata_config l _ prime_P_512 (by norm_num) (by norm_num) (by norm_num)
  have hL : LongModeOk (genPosdata l) 256 := ⟨fun _ => Or.inl (by norm_num), fun h => by omega, fun h => by omega⟩
  have hS : ShortModeOk (genPosdata l) 256 c := ⟨fun _ => Or.inl (by omega), fun h => by omega, fun h => by omega, fun h => by omega⟩
  have hd : (genPosdata l).dataL = (256 * c) * (genPosdata l).unitL := by rw [cfg.data, cfg.block, Nat.mul_assoc]
  have hdvd : (genPosdata l).unitL ∣ (genPosdata l).dataL := ⟨256 * c, by rw [hd]; ring⟩
  obtain ⟨padded, p1, p2, p3, -⟩ := padded_unitsBelow cfg
    (origin := seenUnits rd.pad origin (genPosdata l).dataL (genPosdata l).unitL) (seenUnits_length _ _ _ _ hdvd)
  rw [← copyAndPadShort_seen _ _ _ _ cfg.unit_pos] at p1
  obtain ⟨st, s1, -, -, s4, -⟩ := C95_seal_exact rd.sealOwn rd.sealDep H hH _ _ 256 c cfg hL hS padded
    ((List.range 128).map ch.ivRng) (Nat.le_of_eq p2.symm) p3
    (sealingOf H (genPosdata l) _ c ((List.range 128).map ch.ivRng) (longOf H (genPosdata l) 256) (shortOf H (genPosdata l) 256 c))
    ⟨rfl, rfl, rfl, rfl, rfl, rfl, rfl, rfl, rfl⟩
  obtain ⟨plain, u1, -⟩ := C95_unseal_exact rd.unsealOwn rd.unsealBefore rd.unsealDep H hH _ _ 256 c cfg hL hS st.file
    ((List.range 128).map ch.ivRng) (by rw [s4, p2])
    (sealingOf H (genPosdata l) _ c ((List.range 128).map ch.ivRng) (unsealLongOf H (genPosdata l) 256) (shortOf H (genPosdata l) 256 c))
    ⟨rfl, rfl, rfl, rfl, rfl, rfl, rfl, rfl⟩
  have hcmp := (C113_compress rd.compress plain (256 * c) (genPosdata l).unitL (genPosdata l).unitPl cfg.unit_pos
    (by rw [cfg.unit_pl]; omega)).1
  rw [← hd] at hcmp
  have s1' : sealFileShort rd.sealOwn rd.sealDep H (genPosdata l) padded P_512 ((List.range 128).map ch.ivRng) = .ok st := s1
  have u1' : unsealFileShort rd.unsealOwn rd.unsealBefore rd.unsealDep H (genPosdata l) st.file P_512
    ((List.range 128).map ch.ivRng) = .ok plain := u1
  have hpub := C17_shipped (d.pubdata.getD []) (genPosdata l).unitPl ch.ivRng
  rw [genPosdata_key] at hpub
  refine ⟨padded, st, plain, _, _, p1, s1', u1', hcmp, hpub, ?_, ?_⟩ <;>
  · unfold testPostorageShort sealAndUnsealShort
    simp only [if_true, ← horigin, openFile, bind_ok, p1, genPosdata_key, s1', u1', hcmp, Bool.false_eq_true, if_false]
    rfl

/-- A run that only checks, under any short reads.  Challenging the leaves: it is accepted exactly if the check of
the trees of two files is accepted that hold what the reads of each file returned, followed by zeros in every
leaf.  Checking the first ten blocks: it is accepted exactly if what the reads return of the original is what
unsealing with these reads makes of the sealed file. -/
theorem C115_check (H Hs : Bytes → Bytes) (params : PosPara) (rd : RunReads) (x : Bool) (ch : RunChoices)
    (origin file unsealed pub : Bytes) :
    (∀ (par n : Nat) (o' u' : Bytes), params.dataL = n * params.blockL → 0 < params.blockL →
      (∀ i < n, ∀ t < params.blockL, o'[(i + 1) * params.blockL + t]?.getD 0 =
        if t < rd.treeOrigin (i * params.blockL) then origin[(i + 1) * params.blockL + t]?.getD 0 else 0) →
      (∀ i < n, ∀ t < params.blockL, u'[(i + 1) * params.blockL + t]?.getD 0 =
        if t < rd.treeUnsealed (i * params.blockL) then unsealed[(i + 1) * params.blockL + t]?.getD 0 else 0) →
      ∀ d', (testPostorageShort rd H Hs params ⟨false, x, true, false⟩ par ch
          ⟨some origin, some file, some unsealed, some pub⟩ = .ok (some d') ↔
        d' = ⟨some origin, some file, some unsealed, some pub⟩ ∧
        merkleTreeProof Hs o' u' params.dataL params.blockL params.leavesToProveCount ch.draw ch.fuel = .ok (some ()))) ∧
    (∀ (p n c : Nat) (iv : Bytes), (∀ x, (H x).length = 32) → Config params p n c → params.modeL = 0 → ShortModeOk params n c →
      LongCountOk n params.cntL → 10 ≤ n → loadData pub = .ok ((p : Int), iv) → n * params.blockPl ≤ file.length →
      ∃ out plain, unsealFileShort rd.singleOwn rd.singleBefore rd.singleDep H params file (p : Int) iv = .ok out ∧
        copyAndCompress out params.dataL params.unitL params.unitPl = .ok plain ∧
        ∀ d', (testPostorageShort rd H Hs params ⟨false, x, false, true⟩ 0 ch
            ⟨some origin, some file, some unsealed, some pub⟩ = .ok (some d') ↔
          d' = ⟨some origin, some file, some unsealed, some pub⟩ ∧
          ∀ k < 10, ∀ t < params.blockL, plain[k * params.blockL + t]?.getD 0 =
            if t < rd.singleOrigin k then origin[k * params.blockL + t]?.getD 0 else 0)) := by
  constructor
  · intro par n o' u' hd hb ho hu d'
    have h := C115_merkle rd.treeOrigin rd.treeUnsealed Hs origin unsealed o' u' n params.blockL params.leavesToProveCount hb
      ch.draw ch.fuel ho hu
    rw [← hd] at h
    unfold testPostorageShort
    simp only [Bool.false_eq_true, if_false, if_true, pure_eq_ok, bind_ok, openFile, h]
    cases hm : merkleTreeProof Hs o' u' params.dataL params.blockL params.leavesToProveCount ch.draw ch.fuel with
    | error e => rw [bind_error]; exact ⟨fun h => (by cases h), fun h => absurd h.2 (by intro h; cases h)⟩
    | ok a =>
      rw [bind_ok]
      cases a with
      | none => exact ⟨fun h => (by cases h), fun h => absurd h.2 (by intro h; cases h)⟩
      | some u =>
        constructor
        · intro h; cases h; exact ⟨rfl, rfl⟩
        · rintro ⟨rfl, -⟩; rfl
  · intro p n c iv hH cfg hL hS hn h10 hload hlen
    obtain ⟨out, plain, bp, h1, h2, -, -, h5⟩ := C115_single rd.singleOwn rd.singleBefore rd.singleDep H hH params p n c cfg hL hS
      hn h10 pub iv file hload hlen
    refine ⟨out, plain, h1, h2, fun d' => ?_⟩
    rw [← (h5 rd.singleOrigin origin (some unsealed)).1 ch.sched]
    unfold testPostorageShort
    simp only [Bool.false_eq_true, if_false, if_true, pure_eq_ok, bind_ok]
    cases hm : unsealSingleAndVerifyShort rd.singleOwn rd.singleBefore rd.singleOrigin rd.singleDep H params
        ⟨some origin, some file, some unsealed, some pub⟩ 0 ch.sched with
    | error e => rw [bind_error]; exact ⟨fun h => (by cases h), fun h => absurd h.2 (by intro h; cases h)⟩
    | ok a =>
      rw [bind_ok]
      cases a with
      | none => exact ⟨fun h => (by cases h), fun h => absurd h.2 (by intro h; cases h)⟩
      | some u =>
        constructor
        · intro h; cases h; exact ⟨rfl, rfl⟩
        · rintro ⟨rfl, -⟩; rfl

/-- The runs of `C115_check` with ten blocks of one unit: complete reads; a short read of one leaf of the unsealed file only; a
short read of the same leaf of both files; a short read of a block of the original. -/
example : (match testPostorage toyHash toyHash (toyParams 10 1 0 0 0 1 1) ⟨true, true, false, false⟩ 0
      ⟨fun i => UInt8.ofNat (i * 7 + 1), fun i => UInt8.ofNat i, [], fun i => i % 3, 5⟩ ⟨none, none, none, none⟩,
      testPostorage toyHash toyHash (toyParams 10 1 0 0 0 1 1) ⟨true, false, false, false⟩ 0
      ⟨fun i => UInt8.ofNat (i * 7 + 1), fun i => UInt8.ofNat i, [], fun i => i % 3, 5⟩ ⟨none, none, none, none⟩ with
    | .ok (some d), .ok (some e) =>
      let run := fun (f : Flags) (so tO tU : Nat → Nat) (d : Disk) =>
        testPostorageShort ⟨fun _ => 63, fun _ => 64, fun _ _ => 64, fun _ => 64, fun _ => 64, fun _ _ => 64,
          fun _ => 64, fun _ => 64, fun _ => 64, fun _ _ => 64, so, tO, tU⟩ toyHash toyHash (toyParams 10 1 0 0 0 1 1) f 0
          ⟨fun i => UInt8.ofNat (i * 7 + 1), fun i => UInt8.ofNat i, [], fun i => i % 3, 5⟩ d
      decide (
        run ⟨false, false, true, false⟩ (fun _ => 63) (fun _ => 63) (fun _ => 63) d = .ok (some d) ∧
        run ⟨false, false, true, false⟩ (fun _ => 63) (fun _ => 63) (fun i => if i = 63 then 60 else 63) d = .error .assertion ∧
        run ⟨false, false, true, false⟩ (fun _ => 63) (fun i => if i = 63 then 60 else 63) (fun i => if i = 63 then 60 else 63) d =
          .ok (some d) ∧
        run ⟨false, false, false, true⟩ (fun _ => 63) (fun _ => 63) (fun _ => 63) e = .ok (some e) ∧
        run ⟨false, false, false, true⟩ (fun i => if i = 3 then 60 else 63) (fun _ => 63) (fun _ => 63) e = .error .assertion)
    | _, _ => false) = true := by decide +kernel

end PoS
