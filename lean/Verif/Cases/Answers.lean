import Verif.Cases.World
import Verif.Properties.Unsealing
import Verif.Properties.Decoding
import Verif.Properties.Detection
import Verif.Properties.Crash
import Verif.Properties.AnyAnswer
import Verif.Properties.AnswerSize

/-
The theorems about answers to challenges applied to the concrete world, hypothesis by hypothesis.
-/

namespace PoS.World

theorem wwf : WellFormed wp 2 [0, 2] wr.blocks wr.beforeIds wr.dependBlocks :=
  ⟨by decide +kernel, by decide +kernel, by decide +kernel, by decide +kernel, by decide +kernel⟩

/-- Another well-formed answer, which was not made from a sealed file. -/
theorem wwf' : WellFormed wp 2 [1] [[zeros 64, leBytes 64 5]] [[9]] [[[[1], [2]]]] := ⟨rfl, rfl, rfl, by decide, by decide⟩

example : wr.blocks.length = 2 ∧ wr.dependBlocks.map List.length = [0, 1] := by decide +kernel

/-! ### Reading and decoding -/

example := C80_local toyHash (by w) wp wq 3 2 (by w) (by w) (by w) wst.file (wst.file.set 300 9) wiv (by w) (by w) _ _
  (okd (by decide +kernel)) (okd (by decide +kernel)) 1 (by w) (fun i hi => by
    have h : ∀ i ∈ unsealLongOf toyHash wp 3 (toyHash (readFile wst.file ((1 - 1) * wp.blockPl) wp.blockPl)) 1, i = 0 := by
      decide +kernel
    have : i = 0 ∨ i = 1 := by rcases hi with h1 | h1 | h1 <;> [skip; skip; have := h i h1] <;> omega
    rcases this with rfl | rfl <;> decide +kernel)
example := C80_damage toyHash (by w) wp wq 3 2 (by w) (by w) (by w) (by w) wo wiv wf (by w) wst (by w) (by w) (by w) 2
  (wst.file.set 300 9) (by w) (fun i hi => by
    have h : 300 ≠ i := by
      have : wp.blockPl = 128 := rfl
      omega
    simp [h])
example := C81_batch_exact toyHash (by w) wp wq 3 2 (by w) (by w) wiv [0, 2] wr.blocks wr.beforeIds wr.dependBlocks wwf
example := C81_batch_exact toyHash (by w) wp wq 3 2 (by w) (by w) wiv [1] _ _ _ wwf'
example := C81_parallel_exact toyHash (by w) wp wq 3 2 (by w) (by w) wiv [0, 2] wr.blocks wr.beforeIds wr.dependBlocks wwf
  1 wsched _ (oks (by decide +kernel))
example := C81_verdict toyHash toyHash (by w) wp wq 3 2 (by w) (by w) wo wpub wiv (by w) wm.1 wm.2.2 7 [0, 2] wr wwf
example := C81_verdict_parallel toyHash toyHash (by w) wp wq 3 2 (by w) (by w) wo wpub wiv (by w) wm.1 wm.2.2 7 [0, 2] wr
  wwf 2 (by w) wsched
example := C03_random_access toyHash (by w) wp wq 3 2 (by w) (by w) wf wiv (by w) (by w) wst (by w) (by w) [2, 0, 2] (by w) (by w)
example := C03_byte_range toyHash (by w) wp wq 3 2 (by w) (by w) wf wiv (by w) (by w) wst (by w) (by w) 100 300 (by w) (by w)
example := C25_prepare toyHash (by w) wp wq 3 2 (by w) (by w) (by w) wst.file 128 300 (by w)
example := C26_prepare toyHash (by w) wp wq 3 2 (by w) (by w) (by w) wst.file 100 300 (by w)

/-! ### Any answer, any file, its size -/

example := C94_batch toyHash (by w) wp wq 3 2 (by w) (by w) (by w) (by w) wiv [0, 2] wr.blocks (by w) wr.beforeIds wr.dependBlocks
example := C94_parallel toyHash (by w) wp wq 3 2 (by w) (by w) (by w) (by w) wiv [0, 2] wr.blocks (by w) wr.beforeIds
  wr.dependBlocks 1 wsched _ (oks (by decide +kernel))
example := C94_verdict toyHash toyHash (by w) wp wq 3 2 (by w) (by w) (by w) (by w) wo wpub wiv (by w) wm.1 wm.2.2 7 [0, 2] wr (by w)
example := C94_verdict_parallel toyHash toyHash (by w) wp wq 3 2 (by w) (by w) (by w) (by w) wo wpub wiv (by w) wm.1 wm.2.2 7
  [0, 2] wr (by w) 1 wsched _ (oks (by decide +kernel))
example := C91_any_file toyHash toyHash (by w) (by w) wp wq 3 2 (by w) (by w) (by w) (by w) wo wpub wiv (by w) wst.ids (by w)
  wm.1 wm.2.1 wm.2.2 (by w) (wst.file.set 300 9) (by w)
example := C91_count toyHash toyHash (by w) (by w) wp wq 3 2 (by w) (by w) (by w) (by w) wo wpub wiv (by w) wst.ids (by w)
  wm.1 wm.2.1 wm.2.2 (by w) (wst.file.set 300 9) (by w)
example := C106_merkle toyHash (by w) wst.ids wm.1 wm.2.1 wm.2.2 (by w) [0, 2] (by w) (by w) (by w)
example := C106_parts toyHash toyHash (by w) (by w) wp wq 3 2 (by w) (by w) (by w) wst.ids (by w) wm.1 wm.2.1 wm.2.2 (by w)
  wst.file 7 [0, 2] (by w) (by w) (by w)
example := C106_total toyHash toyHash (by w) (by w) wp wq 3 2 (by w) (by w) (by w) wst.ids (by w) wm.1 wm.2.1 wm.2.2 (by w)
  wst.file 7 [0, 2] (by w) (by w) (by w) wr (by w)

end PoS.World
