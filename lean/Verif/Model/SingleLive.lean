import Verif.Model.Live
import Verif.Model.PipelineDisk

/-
`test_unseal_single_and_verify` (/repo/proof_of_storage/src/proof_of_storage/postorage.rs 157-177), as called by
`test` (251-273, without threads), while another thread rewrites the files: `cargo test` runs the tests of a crate in
parallel, and `test_pipeline` (275-429) writes all the files `test` reads.

Simplification: as in Model/Live.lean one call of `read_file` finds one content; the content each call finds is a
parameter.  All files exist.
-/

namespace PoS

/-- `test_unseal_single_and_verify`, postorage.rs 157-177, with `parallel_num = 0`.  `load_data` (161) finds `pub`; for
block `k` `batch_unseal_prepare` (162) finds `own k`, `before k` and `dep k m`, and `batch_verify` (173-175) finds
`origin k`. -/
def unsealSingleLive (pub : Bytes) (own before : Nat → Bytes) (dep : Nat → Nat → Bytes) (origin : Nat → Bytes)
    (H : Bytes → Bytes) (params : PosPara) : R Unit := do
  let kv ← loadData pub
  let bp ← batchUnsealPrepareLive own before dep H params (0 * params.blockPl) (10 * params.blockPl)
  let out ← batchUnseal H params bp.blocksIdx bp.blocks bp.beforeIds bp.dependBlocks kv.1 kv.2
  forUp bp.blocksIdx.length (fun i _ => do
    let k ← at! bp.blocksIdx i
    let b ← at! out i
    batchVerify (origin k) k b params.blockL params.unitL) ()

end PoS
