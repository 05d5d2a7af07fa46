import Verif.Proofs.Parallel
import Verif.Properties.Verifier

/-
C05, C06: the thread pool version of batch unsealing.
-/

namespace PoS

/-- What `batch_unseal_parallel` does to block `i`, whatever the schedule. -/
theorem parallel_result {H : Bytes → Bytes} {params : PosPara} {idxs : List Nat}
    {blocks : List (List Bytes)} {ids : List Bytes} {deps : List (List (List Bytes))} {key : Int} {iv : Bytes}
    {workers : Nat} {sched : List Nat} {outs : List (List Bytes)}
    (h : batchUnsealParallel H params idxs blocks ids deps key iv workers sched = .ok (some outs)) :
    ∃ S, parIdxsS params = .ok S ∧ outs.length = blocks.length ∧
      ∀ i (hi : i < blocks.length), outs[i]? = some
        (match batchBlock H params key iv S idxs ids deps i blocks with
          | .ok b => b
          | .error _ => blocks[i]) := by
  unfold batchUnsealParallel at h
  rw [bind_eq_ok] at h
  obtain ⟨S, hS, h⟩ := h
  split at h
  · cases h
  · split at h
    · next st hst =>
      split at h
      · next hfin =>
        have := Option.some.inj (Except.ok.inj h)
        subst this
        have hinv := parRun_inv sched (parInv_init _ blocks) hst
        refine ⟨S, hS, hinv.blocks, fun i hi => ?_⟩
        exact parInv_final hinv hfin i hi
      · cases h
    · cases h

/-- Any two complete schedules, with any (non-zero) numbers of threads, return the same blocks. -/
theorem C05_schedule_independent (H : Bytes → Bytes) (params : PosPara) (idxs : List Nat)
    (blocks : List (List Bytes)) (ids : List Bytes) (deps : List (List (List Bytes))) (key : Int) (iv : Bytes)
    (workers workers' : Nat) (sched sched' : List Nat) (outs outs' : List (List Bytes))
    (h : batchUnsealParallel H params idxs blocks ids deps key iv workers sched = .ok (some outs))
    (h' : batchUnsealParallel H params idxs blocks ids deps key iv workers' sched' = .ok (some outs')) :
    outs = outs' := by
  obtain ⟨S, hS, hl, hb⟩ := parallel_result h
  obtain ⟨S', hS', hl', hb'⟩ := parallel_result h'
  rw [hS] at hS'
  cases hS'
  apply List.ext_getElem?
  intro i
  by_cases hi : i < blocks.length
  · rw [hb i hi, hb' i hi]
  · rw [List.getElem?_eq_none (by omega), List.getElem?_eq_none (by omega)]

/-- Whenever sequential `batch_unseal` succeeds, every complete schedule returns its result. -/
theorem C05_equals_sequential (H : Bytes → Bytes) (params : PosPara) (idxs : List Nat)
    (blocks : List (List Bytes)) (ids : List Bytes) (deps : List (List (List Bytes))) (key : Int) (iv : Bytes)
    (workers : Nat) (sched : List Nat) (seq outs : List (List Bytes))
    (htab : batchIdxsS params = parIdxsS params)
    (hs : batchUnseal H params idxs blocks ids deps key iv = .ok seq)
    (h : batchUnsealParallel H params idxs blocks ids deps key iv workers sched = .ok (some outs)) :
    outs = seq := by
  obtain ⟨S, hS, hl, hb⟩ := parallel_result h
  rw [← htab] at hS
  obtain ⟨hl', hb'⟩ := (batchUnseal_iff hS).mp hs
  apply List.ext_getElem?
  intro i
  by_cases hi : i < blocks.length
  · rw [hb i hi, hb' i hi, List.getElem?_eq_getElem (by omega)]
  · rw [List.getElem?_eq_none (by omega), List.getElem?_eq_none (by omega)]

/-- With hash-chosen short dependencies the two tables always agree. -/
theorem C05_equals_sequential_random_short (H : Bytes → Bytes) (params : PosPara) (hm : params.modeS = 0)
    (idxs : List Nat) (blocks : List (List Bytes)) (ids : List Bytes) (deps : List (List (List Bytes)))
    (key : Int) (iv : Bytes) (workers : Nat) (sched : List Nat) (seq outs : List (List Bytes))
    (hs : batchUnseal H params idxs blocks ids deps key iv = .ok seq)
    (h : batchUnsealParallel H params idxs blocks ids deps key iv workers sched = .ok (some outs)) :
    outs = seq :=
  C05_equals_sequential H params idxs blocks ids deps key iv workers sched seq outs
    (C58_tables_agree params hm) hs h

/-- No deadlock and no endless run: with at least one thread, every legal beginning of a
schedule has bounded length and can be continued to a complete one. -/
theorem C05_terminates (H : Bytes → Bytes) (params : PosPara) (idxs : List Nat)
    (blocks : List (List Bytes)) (ids : List Bytes) (deps : List (List (List Bytes))) (key : Int) (iv : Bytes)
    (workers : Nat) (hw : 0 < workers) (S : List (List Nat)) (hS : parIdxsS params = .ok S)
    (sched : List Nat) (st : PState)
    (h : parRun ⟨H, params, key, iv, S, idxs, ids, deps⟩ workers sched
      ⟨blocks, List.replicate blocks.length .waiting⟩ = some st) :
    sched.length ≤ (blocks.map (fun b => params.sealRounds * (b.length + 1) + 2)).sum ∧
    ∃ rest outs,
      batchUnsealParallel H params idxs blocks ids deps key iv workers (sched ++ rest) = .ok (some outs) := by
  have hinv := parRun_inv sched (parInv_init _ blocks) h
  constructor
  · have := parRun_length sched (parInv_init _ blocks) h
    have e : totalWeight params.sealRounds (blocks.map List.length) (List.replicate blocks.length .waiting) =
        (blocks.map (fun b => params.sealRounds * (b.length + 1) + 2)).sum := by
      unfold totalWeight
      congr 1
      clear h hinv this
      induction blocks with
      | nil => rfl
      | cons b bs ih => 
        simp only [List.map_cons, List.length_cons, List.replicate_succ, List.zipWith_cons_cons, ih]
        rfl
    rw [e] at this
    omega
  · obtain ⟨rest, st', hr, hf⟩ := parRun_complete hw _ st hinv (Nat.le_refl _)
    refine ⟨rest, st'.blocks, ?_⟩
    unfold batchUnsealParallel
    rw [hS, bind_ok, if_neg (by omega), parRun_append, h]
    simp only [Option.bind_some, hr]
    rw [if_pos hf]
    rfl

/-- An honestly sealed file, any dependency modes: every complete schedule returns the
plaintext of each requested block. -/
theorem C05_honest (H : Bytes → Bytes) (hH : ∀ x, (H x).length = 32) (params : PosPara)
    (p n c : Nat) (cfg : Config params p n c) (hr : 0 < params.sealRounds)
    (file iv : Bytes) (hlen : n * params.blockPl ≤ file.length) (hu : UnitsBelow params p n c file)
    (st : SealState) (hseal : sealFile H params file (p : Int) iv = .ok st) (hlog : ∀ v ∈ st.log, v ≠ 0)
    (idxs : List Nat) (hidx : ∀ k ∈ idxs, k < n) (workers : Nat) :
    ∃ pr : Nat → Prepared, (∀ k ∈ idxs, singleUnsealPrepare H params st.file k = .ok (pr k)) ∧
      ∀ sched outs, batchUnsealParallel H params idxs (idxs.map fun k => (pr k).block)
          (idxs.map fun k => (pr k).beforeId) (idxs.map fun k => (pr k).dependBlocks) (p : Int) iv workers
          sched = .ok (some outs) →
        outs.length = idxs.length ∧
        ∀ (i k : Nat) (out : List Bytes), idxs[i]? = some k → outs[i]? = some out →
          out.flatten = readFile file (k * params.blockPl) params.blockPl ∧ out.length = c ∧
          ∀ u ∈ out, u.length = params.unitPl := by
  have hex : ∀ k, ∃ pr us, k < n → ∃ S, idxsSOf params n = .ok S ∧
      singleUnsealPrepare H params st.file k = .ok pr ∧ pr.block.length = c ∧
      (us.flatten = readFile file (k * params.blockPl) params.blockPl ∧ us.length = c ∧
        ∀ u ∈ us, u.length = params.unitPl) ∧
      unsealRoundsLoop H params (p : Int) iv S pr.beforeId pr.dependBlocks c k pr.block = .ok us := by
    intro k
    by_cases hk : k < n
    · obtain ⟨S, T, pr, us, h1, h2, h3, h4, -, h5, h6, h7, -, h8, h9⟩ :=
        sealed_block hH cfg hr hlen hu hseal hlog hk
      refine ⟨pr, us, fun _ => ⟨S, h1, h3, h4, ⟨h6, h7, ?_⟩, h8⟩⟩
      obtain ⟨w, hw1, -, hw2, -⟩ := blockOf_units cfg.layout file k
      unfold blockOf at hw1
      rw [h5] at hw1
      cases hw1
      exact hw2
    · exact ⟨⟨[], [], []⟩, [], fun h => absurd h hk⟩
  choose pr us h using hex
  refine ⟨pr, fun k hk => ?_, fun sched outs ho => ?_⟩
  · obtain ⟨S, -, h2, -⟩ := h k (hidx k hk)
    exact h2
  · obtain ⟨S, hS, hl, hb⟩ := parallel_result ho
    have hS' : idxsSOf params n = .ok S := by
      rw [← hS]
      unfold parIdxsS idxsSOf
      rw [cfg.div]
      rfl
    refine ⟨by simpa using hl, fun i k out hi hx => ?_⟩
    obtain ⟨hil, hik⟩ := List.getElem?_eq_some_iff.mp hi
    obtain ⟨S', hS'', -, hc, hflat, hun⟩ := h k (hidx k (List.mem_of_getElem? hi))
    rw [hS'] at hS''
    cases hS''
    have h1 := hb i (by simpa using hil)
    rw [hx, batchBlock_eq (b := (pr k).beforeId) (d := (pr k).dependBlocks) (us := (pr k).block) (idx2 := k)
      (by rw [List.getElem?_map, hi]; rfl) (by rw [List.getElem?_map, hi]; rfl) hi
      (by rw [List.getElem?_map, hi]; rfl), hc, hun] at h1
    cases h1
    exact hflat

/-! ### C06: panics inside a task are silent -/

/-- If the computation for block `i` panics, the caller still gets a normal return whose block
`i` is the block as submitted. -/
theorem C06_panicking_task_returns_input (H : Bytes → Bytes) (params : PosPara) (idxs : List Nat)
    (blocks : List (List Bytes)) (ids : List Bytes) (deps : List (List (List Bytes))) (key : Int) (iv : Bytes)
    (workers : Nat) (sched : List Nat) (outs : List (List Bytes)) (S : List (List Nat))
    (hS : parIdxsS params = .ok S)
    (h : batchUnsealParallel H params idxs blocks ids deps key iv workers sched = .ok (some outs))
    (i : Nat) (hi : i < blocks.length) (e : Panic)
    (hp : batchBlock H params key iv S idxs ids deps i blocks = .error e) : outs[i]? = blocks[i]? := by
  obtain ⟨S', hS', hl, hb⟩ := parallel_result h
  rw [hS] at hS'
  cases hS'
  rw [hb i hi, hp, List.getElem?_eq_getElem hi]

/-- The tasks that do not panic are not affected: their blocks come back unsealed. -/
theorem C06_other_blocks (H : Bytes → Bytes) (params : PosPara) (idxs : List Nat)
    (blocks : List (List Bytes)) (ids : List Bytes) (deps : List (List (List Bytes))) (key : Int) (iv : Bytes)
    (workers : Nat) (sched : List Nat) (outs : List (List Bytes)) (S : List (List Nat))
    (hS : parIdxsS params = .ok S)
    (h : batchUnsealParallel H params idxs blocks ids deps key iv workers sched = .ok (some outs))
    (i : Nat) (hi : i < blocks.length) (b : List Bytes)
    (hb : batchBlock H params key iv S idxs ids deps i blocks = .ok b) :
    outs.length = blocks.length ∧ outs[i]? = some b := by
  obtain ⟨S', hS', hl, ho⟩ := parallel_result h
  rw [hS] at hS'
  cases hS'
  exact ⟨hl, by rw [ho i hi, hb]⟩

/-- The call as a whole panics only while the table is built or for an empty pool; in
particular never because of a task. -/
theorem C06_only_two_panics (H : Bytes → Bytes) (params : PosPara) (idxs : List Nat)
    (blocks : List (List Bytes)) (ids : List Bytes) (deps : List (List (List Bytes))) (key : Int) (iv : Bytes)
    (workers : Nat) (sched : List Nat) :
    (∃ e, batchUnsealParallel H params idxs blocks ids deps key iv workers sched = .error e) ↔
      (∃ e, parIdxsS params = .error e) ∨ workers = 0 := by
  unfold batchUnsealParallel
  cases hS : parIdxsS params with
  | error e => simp [bind, Except.bind]
  | ok S =>
    rw [bind_ok]
    by_cases hw : workers = 0
    · simp [hw]
    · rw [if_neg hw]
      simp only [hw, or_false, reduceCtorEq, exists_false, iff_false]
      rintro ⟨e, he⟩
      split at he
      · split at he <;> cases he
      · cases he

/-- A missing block index is enough: task 1 panics (`idxs` too short), its block comes back as
submitted, task 0 is unsealed, and sequential `batch_unseal` panics on the same input. -/
example :
    let params := toyParams 4 2 0 0 1 1 1
    let blocks : List (List Bytes) := [[zeros 64, zeros 64], [zeros 64, zeros 64]]
    (match batchUnsealParallel toyHash params [3] blocks [[], []] [[], []] 103 [1, 2] 2 [0, 1, 0, 0, 0, 0] with
      | .ok (some outs) => outs[1]? == blocks[1]? && outs[0]? != blocks[0]?
      | _ => false) = true ∧
    batchUnseal toyHash params [3] blocks [[], []] [[], []] 103 [1, 2] = .error .index := by
  decide +kernel

/-- Two different schedules with one and with two threads; both complete. -/
example :
    let params := toyParams 4 1 0 0 1 1 1
    let blocks : List (List Bytes) := [[zeros 64], [9 :: zeros 63]]
    (match batchUnsealParallel toyHash params [0, 3] blocks [[], [5]] [[], []] 103 [1, 2] 1
        [1, 1, 1, 1, 0, 0, 0, 0],
      batchUnsealParallel toyHash params [0, 3] blocks [[], [5]] [[], []] 103 [1, 2] 2
        [0, 1, 1, 0, 1, 0, 0, 1] with
      | .ok (some a), .ok (some b) => a == b && a != blocks
      | _, _ => false) = true := by
  decide +kernel

end PoS
