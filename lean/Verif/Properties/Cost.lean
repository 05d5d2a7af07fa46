import Verif.Properties.Crash
import Verif.Properties.Retrieval

/-
C128: what it costs to pass challenge rounds without ever sealing the file.
-/

namespace PoS

/-- One unit is one delay encoding. -/
theorem sealUnit_log {H : Bytes → Bytes} {params : PosPara} {key : Int} {iv : Bytes} {T : List (List Nat)}
    {ids : List Bytes} {deps : List (List Bytes)} {c k j : Nat} {s s' : List Bytes × List Nat}
    (h : sealUnit H params key iv T ids deps c k j s = .ok s') : s'.2.length = s.2.length + 1 := by
  unfold sealUnit at h
  simp only [bind_eq_ok, pure_eq_ok] at h
  obtain ⟨_, -, _, -, _, -, _, -, _, -, h⟩ := h
  rw [← Except.ok.inj h]
  simp

/-- Any parameters, dependencies and block: sealing a block of `c` units in memory makes exactly `c` delay
encodings per round. -/
theorem C128_block_cost (H : Bytes → Bytes) (params : PosPara) (key : Int) (iv : Bytes) (T : List (List Nat))
    (ids : List Bytes) (deps : List (List Bytes)) (c k : Nat) (b b' : List Bytes) (log log' : List Nat)
    (h : sealRoundsLoop H params key iv T ids deps c k (b, log) = .ok (b', log')) :
    log'.length = log.length + params.sealRounds * c := by
  unfold sealRoundsLoop at h
  refine forUp_inv (fun r s => s.2.length = log.length + r * c) (by simp) ?_ h
  intro r _ s s' hs hr
  have := forUp_inv (fun j t => t.2.length = s.2.length + j) rfl (fun j _ t t' ht hj => by
    rw [sealUnit_log hj, ht]; omega) hr
  rw [this, hs]
  ring

/-- A prover that keeps the original and never seals it.  For every block an answer can be made from the bytes of
that block alone, without dependency blocks and with an empty identifier, by `sealRounds` delay encodings per unit.
These answers are made once: they serve every challenge and every nonce, for the Merkle tree of any identifiers, so a
round costs at most the encodings of the challenged blocks, and rounds on the same blocks cost nothing more.  The
sequential verifier accepts them (proviso: no encoder input of a challenged block was zero), and so does the parallel
one, under every complete schedule.  Sealing the file takes the encodings of all `n` blocks. -/
theorem C128_never_sealed (H Hs : Bytes → Bytes) (hH : ∀ x, (H x).length = 32) (hHs : ∀ x, (Hs x).length = 32)
    (params : PosPara) (p n c : Nat) (cfg : Config params p n c) (hS : params.modeS = 0)
    (hc : ShortCountOk c params.cntS) (origin pubdata iv : Bytes) (hload : loadData pubdata = .ok ((p : Int), iv)) :
    (∃ (block : Nat → List Bytes) (log : Nat → List Nat),
      (∀ k, sealRoundsLoop H params (p : Int) iv [] (List.replicate k []) [] c k
          ((List.range c).map (fun j => readFile origin (k * params.blockL + j * params.unitL) params.unitL ++ [0]), []) =
          .ok (block k, log k) ∧ (block k).length = c ∧ (log k).length = params.sealRounds * c) ∧
      ∀ (ids leaves : List Bytes) (tree : MerkleTree) (root : Bytes), ids.length = n →
        generateMerkleTreeFromData Hs ids = .ok (leaves, tree, root) →
        ∀ (indices : List Nat) (r : UInt8), indices.Pairwise (· < ·) → indices ≠ [] → (∀ k ∈ indices, k < n) →
        (indices.flatMap log).length = indices.length * (params.sealRounds * c) ∧
        ((∀ v ∈ indices.flatMap log, v ≠ 0) → ∃ proof, generateMerkleProof indices tree = .ok proof ∧
          let resp : Response := ⟨H (r :: ((indices.map block).map List.flatten).flatten), indices.map block,
            indices.map (fun _ => []), indices.map (fun _ => []), proof⟩
          verifierCheck H Hs params origin pubdata leaves root r indices resp 0 [] = .ok (some ()) ∧
          ∀ workers sched outs, 0 < workers →
            batchUnsealParallel H params indices resp.blocks resp.beforeIds resp.dependBlocks (p : Int) iv workers sched =
              .ok (some outs) →
            verifierCheck H Hs params origin pubdata leaves root r indices resp workers sched = .ok (some ()))) ∧
    ∀ padded, origin.length = params.dataL → copyAndPad origin params.dataL params.unitL = .ok padded →
      LongModeOk params n →
      ∃ st, sealFile H params padded (p : Int) iv = .ok st ∧ st.log.length = n * (params.sealRounds * c) := by
  constructor
  · have hex := fun k => invented_block hH cfg hS hc origin iv k [] (by simp) []
    choose plain block log h0 h1 h2 h3 h4 using hex
    have hcost : ∀ k, (log k).length = params.sealRounds * c := fun k => by
      simpa using C128_block_cost H params _ iv [] _ [] c k _ _ _ _ (h1 k)
    refine ⟨block, log, fun k => ⟨?_, h2 k, hcost k⟩, ?_⟩
    · rw [← h0 k]; exact h1 k
    intro ids leaves tree root hids hm indices r hs hne hlt
    refine ⟨?_, fun hlog => ?_⟩
    · simp only [List.length_flatMap, hcost, List.map_const', List.sum_replicate, smul_eq_mul]
    have hidne : ids ≠ [] := by
      rintro rfl
      cases indices with
      | nil => exact hne rfl
      | cons a l => have := hlt a (by simp); simp at hids; omega
    obtain ⟨lv, tr, ro, proof, m1, -, m2, m3⟩ := C31_completeness Hs hHs ids hidne indices hs hne
      (fun k hk => by rw [hids]; exact hlt k hk)
    rw [hm] at m1
    cases m1
    have hT' : batchIdxsS params = .ok [] := by
      unfold batchIdxsS; rw [if_neg (by simp [hS])]; rfl
    have hun : batchUnseal H params indices (indices.map block) (indices.map fun _ => []) (indices.map fun _ => [])
        (p : Int) iv = .ok (indices.map plain) := by
      refine batchUnseal_eq hT' (by simp) (by simp) (by simp) (by simp) ?_
      intro i hi
      simp only [List.getElem_map]
      rw [h2]
      exact h3 _ (fun v hv => hlog v (List.mem_flatMap.mpr ⟨_, List.getElem_mem hi, hv⟩))
    have hver : forUp indices.length (fun i _ => do
        let k ← at! indices i
        let b ← at! (indices.map plain) i
        batchVerify origin k b params.blockL params.unitL) () = .ok () := by
      rw [forUp_unit_iff (f := fun i => do
        let k ← at! indices i
        let b ← at! (indices.map plain) i
        batchVerify origin k b params.blockL params.unitL)]
      intro i hi
      rw [at!_of_lt hi, bind_ok, at!_of_lt (by simpa using hi), bind_ok, List.getElem_map]
      exact h4 _
    refine ⟨proof, m2, ?_⟩
    intro resp
    constructor
    · unfold verifierCheck
      simp only [resp]
      rw [if_neg (by simp [responseBytes]), m3, bind_ok, hload, bind_ok]
      simp only [if_true, hun, bind_ok]
      show (do
        forUp indices.length _ ()
        pure (some ())) = _
      exact (by rw [hver]; rfl)
    · intro workers sched outs hw hpar
      have hseq : outs = indices.map plain :=
        C05_equals_sequential_random_short H params hS _ _ _ _ _ _ _ _ _ _ hun hpar
      unfold verifierCheck
      simp only [resp]
      rw [if_neg (by simp [responseBytes]), m3, bind_ok, hload, bind_ok]
      rw [if_neg (by omega)]
      simp only [resp] at hpar
      rw [hpar]
      subst hseq
      simp only [bind_ok]
      exact (by rw [hver]; rfl)
  · intro padded hlen hpad hL
    obtain ⟨pd, g1, g2, g3, -⟩ := padded_unitsBelow cfg hlen
    rw [hpad] at g1
    cases g1
    have hS' : ShortModeOk params n c := ⟨fun _ => hc, fun h => by omega, fun h => by omega, fun h => by omega⟩
    obtain ⟨st, e1, -, e3⟩ := C85_encodings H hH params p n c cfg hL hS' padded iv (by omega) g3
      (sealingOf H params p c iv (longOf H params n) (shortOf H params n c))
      ⟨rfl, rfl, rfl, rfl, rfl, rfl, rfl, rfl, rfl⟩
    exact ⟨st, e1, e3⟩

end PoS
