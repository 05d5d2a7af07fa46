import Verif.Properties.Parallel
import Verif.Properties.Verdict
import Verif.Properties.Postorage

/-
C93: the verdict of the parallel verifier on answers whose decoding panics.
-/

namespace PoS

/-- What the parallel verifier compares for one submitted block: its decoding, or the block itself if
the task that decodes it panics. -/
def comparedBlock (H : Bytes → Bytes) (params : PosPara) (key : Int) (iv : Bytes) (S : List (List Nat))
    (indices : List Nat) (resp : Response) (i : Nat) (blk : List Bytes) : List Bytes :=
  match batchBlock H params key iv S indices resp.beforeIds resp.dependBlocks i resp.blocks with
  | .ok b => b
  | .error _ => blk

/-- The verdict of the parallel verifier on any answer whatsoever, for every complete schedule. -/
theorem C93_parallel_verdict (H Hs : Bytes → Bytes) (params : PosPara) (c : Nat) (hu : 0 < params.unitL)
    (hb : params.blockL = c * params.unitL) (origin pubdata : Bytes) (leaves : List Bytes) (root : Bytes) (r : UInt8)
    (indices : List Nat) (resp : Response) (key : Int) (iv : Bytes) (hload : loadData pubdata = .ok (key, iv))
    (S : List (List Nat)) (hS : parIdxsS params = .ok S) (par : Nat) (sched : List Nat) (outs : List (List Bytes))
    (hpar : batchUnsealParallel H params indices resp.blocks resp.beforeIds resp.dependBlocks key iv par sched =
      .ok (some outs)) :
    verifierCheck H Hs params origin pubdata leaves root r indices resp par sched = .ok (some ()) ↔
      resp.hash = H (r :: (resp.blocks.map List.flatten).flatten) ∧
      verifyMerkleProof Hs resp.proof root indices leaves = .ok () ∧
      ∀ i (hi : i < indices.length), ∃ blk, resp.blocks[i]? = some blk ∧
        ∀ j < c, ∃ u, (comparedBlock H params key iv S indices resp i blk)[j]? = some u ∧
          params.unitL ≤ u.length ∧ ∀ t < params.unitL,
            u[t]? = some (origin[indices[i] * params.blockL + j * params.unitL + t]?.getD 0) := by
  have hw : par ≠ 0 := by
    rintro rfl
    have := (C06_only_two_panics H params indices resp.blocks resp.beforeIds resp.dependBlocks key iv 0 sched).mpr (Or.inr rfl)
    obtain ⟨e, he⟩ := this
    rw [hpar] at he
    cases he
  obtain ⟨S', hS', hl, ho⟩ := parallel_result hpar
  rw [hS] at hS'
  cases hS'
  rw [C74_accepted_iff H Hs params c hu hb]
  refine and_congr Iff.rfl (and_congr Iff.rfl ?_)
  have hout : ∀ i, outs[i]? = (resp.blocks[i]?).map (comparedBlock H params key iv S indices resp i) := by
    intro i
    by_cases hi : i < resp.blocks.length
    · rw [ho i hi, List.getElem?_eq_getElem hi]
      rfl
    · rw [List.getElem?_eq_none (by omega), List.getElem?_eq_none (by omega)]
      rfl
  constructor
  · rintro ⟨key', iv', outs', h1, -, h2, h3⟩ i hi
    rw [hload] at h1
    cases h1
    have h2 := h2 hw
    rw [hpar] at h2
    cases h2
    obtain ⟨out, h4, h5⟩ := h3 i hi
    rw [hout i, Option.map_eq_some_iff] at h4
    obtain ⟨blk, h6, rfl⟩ := h4
    exact ⟨blk, h6, h5⟩
  · intro h
    refine ⟨key, iv, outs, hload, fun h0 => absurd h0 hw, fun _ => hpar, fun i hi => ?_⟩
    obtain ⟨blk, h1, h2⟩ := h i hi
    exact ⟨_, by rw [hout i, h1]; rfl, h2⟩

/-- Without dependency data the decoding of a block with units panics. -/
theorem batchBlock_no_deps (H : Bytes → Bytes) (params : PosPara) (hr : 0 < params.sealRounds) (key : Int) (iv : Bytes)
    (S : List (List Nat)) (idxs : List Nat) (ids : List Bytes) (blocks : List (List Bytes)) (i : Nat)
    (hi : i < idxs.length) (hb : i < blocks.length) (hne : blocks[i] ≠ []) :
    batchBlock H params key iv S idxs ids [] i blocks = .error .index := by
  unfold batchBlock
  rw [at!_of_lt hi, bind_ok, at!_of_lt hb, bind_ok]
  simp only []
  have key1 : ∀ (m : Nat) (s : List Bytes), 0 < m → forUp m (fun j s => do
      let a ← sub! blocks[i].length 1
      let idx1 ← sub! a j
      batchUnit H params key iv S ids [] blocks[i].length i idxs[i] idx1 s) s = .error .index := by
    intro m
    induction m with
    | zero => intro s h; omega
    | succ m ih =>
      intro s _
      rw [forUp_succ]
      rcases Nat.eq_zero_or_pos m with h0 | h0
      · subst h0
        rw [forUp_zero, bind_ok]
        have : 1 ≤ blocks[i].length := List.length_pos_of_ne_nil hne
        rw [sub!_of_le this, bind_ok, sub!_of_le (Nat.zero_le _), bind_ok]
        rfl
      · rw [ih s h0]
        rfl
  have key2 : ∀ (m : Nat) (s : List Bytes), 0 < m → forUp m (fun _ s => forUp blocks[i].length (fun j s => do
      let a ← sub! blocks[i].length 1
      let idx1 ← sub! a j
      batchUnit H params key iv S ids [] blocks[i].length i idxs[i] idx1 s) s) s = .error .index := by
    intro m
    induction m with
    | zero => intro s h; omega
    | succ m ih =>
      intro s _
      rw [forUp_succ]
      rcases Nat.eq_zero_or_pos m with h0 | h0
      · subst h0
        rw [forUp_zero, bind_ok, key1 _ _ (List.length_pos_of_ne_nil hne)]
      · rw [ih s h0]
        rfl
  exact key2 _ _ hr

/-- Who holds the original file and the Merkle tree (over any identifiers) need not encode anything:
the blocks of the original, in the clear and unpadded, with no dependency data and no identifiers at
all, are accepted by the parallel verifier under every complete schedule, because every task panics
and leaves its block as submitted.  The sequential verifier panics on the same answer. -/
theorem C93_plaintext_accepted (H Hs : Bytes → Bytes) (hHs : ∀ x, (Hs x).length = 32) (params : PosPara)
    (c : Nat) (hu : 0 < params.unitL) (hc : 0 < c) (hb : params.blockL = c * params.unitL) (hr : 0 < params.sealRounds)
    (hS : params.modeS = 0) (origin pubdata : Bytes) (key : Int) (iv : Bytes) (hload : loadData pubdata = .ok (key, iv))
    (ids : List Bytes) (leaves : List Bytes) (tree : MerkleTree) (root : Bytes)
    (hm : generateMerkleTreeFromData Hs ids = .ok (leaves, tree, root))
    (indices : List Nat) (hs : indices.Pairwise (· < ·)) (hne : indices ≠ []) (hlt : ∀ k ∈ indices, k < ids.length)
    (r : UInt8) (par : Nat) (hpar : 0 < par) :
    ∃ proof, generateMerkleProof indices tree = .ok proof ∧
      let blocks := indices.map (fun k => (List.range c).map (fun j =>
        readFile origin (k * params.blockL + j * params.unitL) params.unitL))
      let resp : Response := ⟨H (r :: (blocks.map List.flatten).flatten), blocks, [], [], proof⟩
      (∃ sched outs, batchUnsealParallel H params indices blocks [] [] key iv par sched = .ok (some outs)) ∧
      (∀ sched outs, batchUnsealParallel H params indices blocks [] [] key iv par sched = .ok (some outs) →
        outs = blocks ∧
        verifierCheck H Hs params origin pubdata leaves root r indices resp par sched = .ok (some ())) ∧
      verifierCheck H Hs params origin pubdata leaves root r indices resp 0 [] = .error .index := by
  obtain ⟨lv, tr, ro, proof, m1, -, m2, m3⟩ := C31_completeness Hs hHs ids (by
    rintro rfl
    cases indices with
    | nil => exact hne rfl
    | cons a l => have := hlt a (by simp); simp at this) indices hs hne hlt
  rw [hm] at m1
  cases m1
  refine ⟨proof, m2, ?_⟩
  intro blocks resp
  have hT : parIdxsS params = .ok [] := by unfold parIdxsS; rw [if_neg (by simp [hS])]; rfl
  have hT' : batchIdxsS params = .ok [] := by unfold batchIdxsS; rw [if_neg (by simp [hS])]; rfl
  have hbl : blocks.length = indices.length := by simp [blocks]
  have hget : ∀ i (hi : i < indices.length), blocks[i]? = some ((List.range c).map (fun j =>
      readFile origin (indices[i] * params.blockL + j * params.unitL) params.unitL)) := by
    intro i hi
    simp only [blocks, List.getElem?_map, List.getElem?_eq_getElem hi, Option.map_some]
  have hpanic : ∀ i, i < indices.length → batchBlock H params key iv [] indices [] [] i blocks = .error .index := by
    intro i hi
    refine batchBlock_no_deps H params hr key iv [] indices [] blocks i hi (by omega) ?_
    have := hget i hi
    rw [List.getElem?_eq_getElem (by omega)] at this
    rw [Option.some.inj this]
    intro h
    have := congrArg List.length h
    simp at this
    omega
  refine ⟨?_, ?_, ?_⟩
  · obtain ⟨-, rest, outs, h⟩ := C05_terminates H params indices blocks [] [] key iv par hpar [] hT [] _ rfl
    exact ⟨_, outs, h⟩
  · intro sched outs h
    refine ⟨?_, ?_⟩
    · obtain ⟨S', hS', hl, ho⟩ := parallel_result h
      rw [hT] at hS'
      cases hS'
      apply List.ext_getElem?
      intro i
      by_cases hi : i < blocks.length
      · rw [ho i hi, hpanic i (by omega), List.getElem?_eq_getElem hi]
      · rw [List.getElem?_eq_none (by omega), List.getElem?_eq_none (by omega)]
    · rw [C93_parallel_verdict H Hs params c hu hb origin pubdata leaves root r indices resp key iv hload [] hT par sched outs h]
      refine ⟨rfl, m3, fun i hi => ⟨_, hget i hi, fun j hj => ?_⟩⟩
      have : comparedBlock H params key iv [] indices resp i ((List.range c).map (fun j =>
          readFile origin (indices[i] * params.blockL + j * params.unitL) params.unitL)) =
          (List.range c).map (fun j => readFile origin (indices[i] * params.blockL + j * params.unitL) params.unitL) := by
        unfold comparedBlock
        rw [show batchBlock H params key iv [] indices resp.beforeIds resp.dependBlocks i resp.blocks = .error .index from hpanic i hi]
      rw [this]
      refine ⟨readFile origin (indices[i] * params.blockL + j * params.unitL) params.unitL, ?_, ?_, fun t ht => ?_⟩
      · rw [List.getElem?_map, List.getElem?_range hj]
        rfl
      · rw [readFile_length]
      · rw [readFile_getElem?, if_pos ht]
  · unfold verifierCheck
    simp only []
    rw [if_neg (by simp [responseBytes, resp]), m3, bind_ok, hload, bind_ok]
    simp only [if_true]
    have : batchUnseal H params indices blocks [] [] key iv = .error .index := by
      unfold batchUnseal
      rw [hT', bind_ok]
      have key1 : ∀ m, 0 < m → forUp m (fun i bs => do
          let new ← batchBlock H params key iv [] indices [] [] i bs
          put! bs i new) blocks = .error .index := by
        intro m
        induction m with
        | zero => intro h; omega
        | succ m ih =>
          intro _
          rw [forUp_succ]
          rcases Nat.eq_zero_or_pos m with h0 | h0
          · subst h0
            rw [forUp_zero, bind_ok, hpanic 0 (List.length_pos_of_ne_nil hne)]
            rfl
          · rw [ih h0]
            rfl
      exact key1 _ (by rw [hbl]; exact List.length_pos_of_ne_nil hne)
    show (batchUnseal H params indices blocks [] [] key iv >>= fun out => pure (some out)) >>= _ = _
    rw [this]
    rfl

/-- The shipped parameter sets meet the hypotheses. -/
theorem C93_shipped (l : Nat) : 0 < (genPosdata l).unitL ∧ 0 < (genPosdata l).sealRounds ∧ (genPosdata l).modeS = 0 ∧
    ∃ c, 0 < c ∧ (genPosdata l).blockL = c * (genPosdata l).unitL := by
  unfold genPosdata
  split
  · exact ⟨by decide, by decide, rfl, 64, by decide, by decide⟩
  · split
    · exact ⟨by decide, by decide, rfl, 256, by decide, by decide⟩
    · split
      · exact ⟨by decide, by decide, rfl, 1024, by decide, by decide⟩
      · exact ⟨by decide, by decide, rfl, 4096, by decide, by decide⟩

/-- Two blocks of the original in the clear, one thread: accepted; the sequential verifier panics. -/
example : (match generateMerkleTreeFromData toyHash [[9], [8]] with
    | .ok (leaves, tree, root) => (match generateMerkleProof [0, 1] tree with
      | .ok proof =>
        let plain : List (List Bytes) := [[(toyFile 126).take 63], [(toyFile 126).drop 63]]
        let check := fun par sched => verifierCheck toyHash toyHash (toyParams 2 1 0 0 1 1 2) (toyFile 126)
          (saveData (zeros 300) P_512 [1, 2, 3]) leaves root 7 [0, 1]
          ⟨toyHash (7 :: (plain.map List.flatten).flatten), plain, [], [], proof⟩ par sched
        decide (check 1 [0, 0, 1, 1] = .ok (some ()) ∧ check 2 [1, 0, 0, 1] = .ok (some ()) ∧ check 0 [] = .error .index)
      | .error _ => false)
    | .error _ => false) = true := by decide +kernel

end PoS
