import Verif.Model.Verifier

/-
Model of `batch_unseal_parallel`, /repo/proof_of_storage/src/proof_of_storage/verifier.rs
379-472, as an interleaving of worker tasks.

One task per block is handed to a pool of `parallel_num` threads.  The only shared data
that is ever written is the vector of blocks; a task reads its entry once at the start
and writes it once at the end, each under the lock, so these two accesses are single
steps.  Everything between them works on the task's own copy; it is split into one
step per unit.  Any waiting task may start when a thread is free (the real pool takes
them in order, which is one of the schedules considered here).
A panic inside a task is caught by the pool: the task disappears, the thread is
replaced, the main thread does not notice.  The read guards held while a panic can
happen do not poison the lock.
-/

namespace PoS

/-- `depend_data` inside a task, verifier.rs 425-450. -/
def parDependData (H : Bytes → Bytes) (params : PosPara) (idxsS : List (List Nat))
    (dependBlocks : List (List (List Bytes))) (curBlock : List Bytes) (unitCnt i idx1 : Nat) :
    R Bytes := do
  let deps ← at! dependBlocks i
  let res ← forUp deps.length (fun k res => do
    let b ← at! deps k
    let u ← at! b idx1
    pure (res ++ u)) []
  if params.modeS ≠ 0 then do
    let l ← at! idxsS idx1
    forEach l (fun idx res => do
      let u ← at! curBlock idx
      pure (res ++ u)) res
  else do
    let ans ←
     (if idx1 = 0 then shortDependRandom H unitCnt [] idx1 params.cntS
      else do
        let before ← at! curBlock (idx1 - 1)
        shortDependRandom H unitCnt before idx1 params.cntS : R (List Nat))
    forEach ans (fun idx res => do
      let u ← at! curBlock idx
      pure (res ++ u)) res

/-- One unit inside a task, verifier.rs 422-464: `j` counts up, the unit handled is
`unit_cnt - 1 - j`. -/
def parUnit (H : Bytes → Bytes) (params : PosPara) (key : Int) (iv : Bytes)
    (idxsS : List (List Nat)) (beforeIds : List Bytes) (dependBlocks : List (List (List Bytes)))
    (unitCnt i idx2 j : Nat) (curBlock : List Bytes) : R (List Bytes) := do
  let a ← sub! unitCnt 1
  let idx1 ← sub! a j
  let dependData ← parDependData H params idxsS dependBlocks curBlock unitCnt i idx1
  let dependData ←
   (if idx1 = 0 then
      if idx2 = 0 then pure (dependData ++ iv)
      else do
        let before ← at! beforeIds i
        pure (dependData ++ before)
    else pure dependData : R Bytes)
  let hash := H dependData
  let curUnit ← at! curBlock idx1
  let vdeInvRes := Rug.vdeInv curUnit key params.vdeRounds params.vdeMode params.unitPl
  let newUnit ← modsub vdeInvRes hash key
  put! curBlock idx1 newUnit

/-- Where a task is. -/
inductive Phase where
  /-- queued -/
  | waiting
  /-- running: own copy of the block, current round, next unit counter -/
  | working (idx2 : Nat) (cur : List Bytes) (round j : Nat)
  /-- returned normally -/
  | done
  /-- panicked -/
  | crashed
  deriving DecidableEq, Repr

/-- Shared vector of blocks and the phase of every task. -/
structure PState where
  blocks : List (List Bytes)
  phase : List Phase
  deriving DecidableEq, Repr

/-- Is a thread of the pool busy with this task? -/
def Phase.busy : Phase → Bool
  | .working .. => true
  | _ => false

/-- Has the task left the pool (`pool.join()` waits for all of them)? -/
def Phase.finished : Phase → Bool
  | .done => true
  | .crashed => true
  | _ => false

/-- What the tasks share read-only, verifier.rs 389-399. -/
structure ParEnv where
  H : Bytes → Bytes
  params : PosPara
  key : Int
  iv : Bytes
  idxsS : List (List Nat)
  blocksIdx : List Nat
  beforeIds : List Bytes
  dependBlocks : List (List (List Bytes))

/-- Task `i` makes one step, verifier.rs 414-467; `none` when it cannot. -/
def parStep (e : ParEnv) (workers i : Nat) (st : PState) : Option PState :=
  match st.phase[i]? with
  | none => none
  | some .waiting =>
    if (st.phase.filter Phase.busy).length < workers then
      match (do
        let idx2 ← at! e.blocksIdx i
        let cur ← at! st.blocks i
        pure (idx2, cur) : R (Nat × List Bytes)) with
      | .ok (idx2, cur) => some { st with phase := st.phase.set i (.working idx2 cur 0 0) }
      | .error _ => some { st with phase := st.phase.set i .crashed }
    else none
  | some (.working idx2 cur r j) =>
    if r < e.params.sealRounds then
      if j < cur.length then
        match parUnit e.H e.params e.key e.iv e.idxsS e.beforeIds e.dependBlocks cur.length i idx2 j cur with
        | .ok cur' => some { st with phase := st.phase.set i (.working idx2 cur' r (j + 1)) }
        | .error _ => some { st with phase := st.phase.set i .crashed }
      else some { st with phase := st.phase.set i (.working idx2 cur (r + 1) 0) }
    else some { blocks := st.blocks.set i cur, phase := st.phase.set i .done }
  | some .done => none
  | some .crashed => none

/-- Run a schedule: at each point the listed task makes a step. -/
def parRun (e : ParEnv) (workers : Nat) : List Nat → PState → Option PState
  | [], st => some st
  | i :: is, st =>
    match parStep e workers i st with
    | some st => parRun e workers is st
    | none => none

/-- The short dependency table of the parallel version, verifier.rs 380-387. -/
def parIdxsS (params : PosPara) : R (List (List Nat)) :=
  if params.modeS ≠ 0 then do
    let n ← div! params.dataL params.blockL
    createShortDepend n params.cntS params.modeS
  else pure []

/-- `batch_unseal_parallel`, verifier.rs 379-472, under a given schedule.
`ThreadPool::new(0)` panics.  `none`: the schedule is impossible or stops before all
tasks have left the pool. -/
def batchUnsealParallel (H : Bytes → Bytes) (params : PosPara) (blocksIdx : List Nat)
    (blocks : List (List Bytes)) (beforeIds : List Bytes)
    (dependBlocks : List (List (List Bytes))) (key : Int) (iv : Bytes) (workers : Nat)
    (sched : List Nat) : R (Option (List (List Bytes))) := do
  let idxsS ← parIdxsS params
  if workers = 0 then .error .assertion
  else
    match parRun ⟨H, params, key, iv, idxsS, blocksIdx, beforeIds, dependBlocks⟩ workers sched
        ⟨blocks, List.replicate blocks.length .waiting⟩ with
    | some st => if st.phase.all Phase.finished then pure (some st.blocks) else pure none
    | none => pure none

end PoS
