import Verif.Model.ReleaseVerify
import Verif.Proofs.Challenge
import Verif.Proofs.Release
import Verif.Proofs.Parallel

/-
Lemmas for the verifier functions of a release build.
-/

namespace PoS

theorem singleUnsealPrepareR_inv {H : Bytes → Bytes} {params : PosPara} {file : Bytes} {k : Nat} {pr : Prepared}
    (h : singleUnsealPrepareR H params file k = .ok pr) :
    toUnits (readFile file (k * params.blockPl) params.blockPl) params.unitPl = .ok pr.block ∧
    pr.beforeId = (if k ≠ 0 then H (readFile file ((k - 1) * params.blockPl) params.blockPl) else []) ∧
    ∃ n L, div! params.dataL params.blockL = .ok n ∧ idxsLOfR params n = .ok L ∧
      (if params.modeL = 0 then do
        let cur ←
         (if k = 0 then pure []
          else
            if params.cntL = 0 then longModeRandom H n pr.beforeId k (k / 10 + 1)
            else longModeRandom H n pr.beforeId k params.cntL : R (List Nat))
        readBlocks params file cur
      else do
        let cur ← at! L k
        readBlocks params file cur) = .ok pr.dependBlocks := by
  unfold singleUnsealPrepareR at h
  simp only [bind_eq_ok] at h
  obtain ⟨blk, h1, n, h2, L, h3, deps, h4, h5⟩ := h
  cases h5
  refine ⟨h1, rfl, n, L, h2, h3, ?_⟩
  simp only at h4 ⊢
  split at h4
  · next hm => rw [if_pos hm]; exact h4
  · next hm => rw [if_neg hm]; exact h4

theorem batchUnsealPrepareR_eq {H : Bytes → Bytes} {params : PosPara} {file : Bytes} {a b : Nat}
    {idxs : List Nat} (hidx : blocksIdxOf params.blockPl a b = .ok idxs) {n : Nat} {L : List (List Nat)}
    (hn : div! params.dataL params.blockL = .ok n) (hL : idxsLOfR params n = .ok L)
    {pr : Nat → Prepared} (h : ∀ k ∈ idxs, singleUnsealPrepareR H params file k = .ok (pr k)) :
    batchUnsealPrepareR H params file a b = .ok
      { blocksIdx := idxs, blocks := idxs.map (fun k => (pr k).block)
        beforeIds := idxs.map (fun k => (pr k).beforeId)
        dependBlocks := idxs.map (fun k => (pr k).dependBlocks) } := by
  unfold batchUnsealPrepareR
  rw [hidx, bind_ok]
  have e1 : forEach idxs (fun idx2 res => do
      let buf := readFile file (idx2 * params.blockPl) params.blockPl
      let ans ← toUnits buf params.unitPl
      pure (res ++ [ans])) [] = .ok (idxs.map (fun k => (pr k).block)) := by
    have := forEach_collect (f := fun k => toUnits (readFile file (k * params.blockPl) params.blockPl) params.unitPl)
      (l := idxs) (acc := []) (g := fun k => (pr k).block)
      (fun k hk => (singleUnsealPrepareR_inv (h k hk)).1)
    rw [List.nil_append] at this
    exact this
  rw [e1, bind_ok, hn, bind_ok, hL, bind_ok]
  have e2 : ∀ (l : List Nat) (acc : List Bytes × List (List (List Bytes))),
      (∀ k ∈ l, singleUnsealPrepareR H params file k = .ok (pr k)) →
      forEach l (fun idx2 (s : List Bytes × List (List (List Bytes))) => do
        let beforeId :=
          if idx2 ≠ 0 then H (readFile file ((idx2 - 1) * params.blockPl) params.blockPl) else []
        let single ←
         (if params.modeL = 0 then do
            let cur ←
             (if idx2 = 0 then pure []
              else
                if params.cntL = 0 then longModeRandom H n beforeId idx2 (idx2 / 10 + 1)
                else longModeRandom H n beforeId idx2 params.cntL : R (List Nat))
            readBlocks params file cur
          else do
            let cur ← at! L idx2
            readBlocks params file cur : R (List (List Bytes)))
        pure (s.1 ++ [beforeId], s.2 ++ [single])) acc =
      .ok (acc.1 ++ l.map (fun k => (pr k).beforeId), acc.2 ++ l.map (fun k => (pr k).dependBlocks)) := by
    intro l
    induction l with
    | nil => intro acc _; simp
    | cons k l ih =>
      intro acc hl
      obtain ⟨-, hb, n', L', hn', hL', hd⟩ := singleUnsealPrepareR_inv (hl k (by simp))
      rw [hn] at hn'; cases hn'
      rw [hL] at hL'; cases hL'
      rw [forEach_cons]
      simp only []
      rw [← hb, hd, bind_ok, pure_eq_ok, bind_ok]
      have := ih (acc.1 ++ [(pr k).beforeId], acc.2 ++ [(pr k).dependBlocks]) (fun y hy => hl y (by simp [hy]))
      refine this.trans ?_
      simp
  have := e2 idxs ([], []) h
  simp only [List.nil_append] at this
  refine bind_eq_ok.mpr ⟨_, this, rfl⟩

theorem parallel_resultR {H : Bytes → Bytes} {params : PosPara} {idxs : List Nat}
    {blocks : List (List Bytes)} {ids : List Bytes} {deps : List (List (List Bytes))} {key : Int} {iv : Bytes}
    {workers : Nat} {sched : List Nat} {outs : List (List Bytes)}
    (h : batchUnsealParallelR H params idxs blocks ids deps key iv workers sched = .ok (some outs)) :
    ∃ S, parIdxsSR params = .ok S ∧ outs.length = blocks.length ∧
      ∀ i (hi : i < blocks.length), outs[i]? = some
        (match batchBlock H params key iv S idxs ids deps i blocks with
          | .ok b => b
          | .error _ => blocks[i]) := by
  unfold batchUnsealParallelR at h
  rw [bind_eq_ok] at h
  obtain ⟨S, hS, h⟩ := h
  split at h
  · cases h
  · split at h
    · next st hst =>
      split at h
      · next hfin =>
        have := Option.some.inj (Except.ok.inj h)
        subst this
        have hinv := parRun_inv sched (parInv_init _ blocks) hst
        refine ⟨S, hS, hinv.blocks, fun i hi => ?_⟩
        exact parInv_final hinv hfin i hi
      · cases h
    · cases h

theorem parIdxsS_eq {params : PosPara} {p n c : Nat} (cfg : Config params p n c) :
    parIdxsS params = idxsSOf params n := by
  unfold parIdxsS idxsSOf
  rw [cfg.div]
  rfl

theorem parIdxsSR_eq {params : PosPara} {p n c : Nat} (cfg : Config params p n c) :
    parIdxsSR params = idxsSOfR params n := by
  unfold parIdxsSR idxsSOfR
  rw [cfg.div]
  rfl

end PoS
