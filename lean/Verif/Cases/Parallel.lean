import Verif.Cases.World
import Verif.Properties.Parallel
import Verif.Properties.Crash

/-
The theorems about the parallel verifier applied to the concrete world, hypothesis by hypothesis.
-/

namespace PoS.World

/-! ### The parallel verifier -/

example := C05_schedule_independent toyHash wp [0, 2] wr.blocks wr.beforeIds wr.dependBlocks (wq : Int) wiv 1 2 wsched
  ([0, 1] ++ List.replicate 7 1 ++ List.replicate 7 0) _ _ (oks (by decide +kernel)) (oks (by decide +kernel))
example := C05_equals_sequential_random_short toyHash wp (by w) [0, 2] wr.blocks wr.beforeIds wr.dependBlocks (wq : Int) wiv
  1 wsched _ _ (okd (by decide +kernel)) (oks (by decide +kernel))
example := C05_equals_sequential toyHash wp [0, 2] wr.blocks wr.beforeIds wr.dependBlocks (wq : Int) wiv
  1 wsched _ _ (by w) (okd (by decide +kernel)) (oks (by decide +kernel))
example := C05_terminates toyHash wp [0, 2] wr.blocks wr.beforeIds wr.dependBlocks (wq : Int) wiv 2 (by w) [] (by w) [0, 1]
  _ (Option.eq_some_iff_get_eq.mpr ⟨by decide +kernel, rfl⟩)
example := C05_honest toyHash (by w) wp wq 3 2 (by w) (by w) wf wiv (by w) (by w) wst (by w) (by w) [2, 0] (by w) 3
/-- A task without dependency data panics, its block comes back as submitted. -/
example := C06_panicking_task_returns_input toyHash wp [0, 2] wr.blocks wr.beforeIds [[]] (wq : Int) wiv 1
  (List.replicate 8 0 ++ List.replicate 2 1) _ [] (by w) (oks (by decide +kernel)) 1 (by w) .index (by w)
example := C06_other_blocks toyHash wp [0, 2] wr.blocks wr.beforeIds [[]] (wq : Int) wiv 1
  (List.replicate 8 0 ++ List.replicate 2 1) _ [] (by w) (oks (by decide +kernel)) 0 (by w) _ (okd (by decide +kernel))
example := C93_parallel_verdict toyHash toyHash wp 2 (by w) (by w) wo wpub wm.1 wm.2.2 7 [0, 2] wr (wq : Int) wiv (by w) []
  (by w) 1 wsched _ (oks (by decide +kernel))
example := C93_plaintext_accepted toyHash toyHash (by w) wp 2 (by w) (by w) (by w) (by w) (by w) wo wpub (wq : Int) wiv (by w)
  wst.ids wm.1 wm.2.1 wm.2.2 (by w) [0, 2] (by w) (by w) (by w) 7 2 (by w)

end PoS.World
