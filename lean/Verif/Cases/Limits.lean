import Verif.Cases.World
import Verif.Properties.Release
import Verif.Properties.ShortRead
import Verif.Properties.ShortRound
import Verif.Properties.ShortBatch
import Verif.Properties.Usize
import Verif.Properties.Columns
import Verif.Properties.StaticVerify

/-
The theorems about release builds, short reads and the integer width applied to the concrete world.
-/

namespace PoS.World

theorem wrel : ReleaseSizes wp 3 := by
  unfold ReleaseSizes
  decide +kernel

example := C89_agrees 8 5 3 2 (by w) (by w) [4]
example := C89_long_modes 100 70 (by w) (by w)
example := C89_short_mode_2 8 5 3 (by w) (by w)
example := C90_same_runs toyHash wp wq 3 2 (by w) (by w) (by w) wf wiv
example := C90_round_trip toyHash (by w) wp wq 3 2 (by w) (by w) (by w) wo (by w) wiv wf _ (by w) (okd' (by decide +kernel)) (by decide +kernel)
example := C90_random_access toyHash (by w) wp wq 3 2 (by w) wrel (by w) wf wiv (by w) (by w) _ (okd' (by decide +kernel))
  (by decide +kernel) [2, 0] (by w) (by w)
example := C101_same_runs toyHash wp wq 3 2 (by w) (by w)

/-- Reads that return 100 bytes of every block. -/
def cut100 : Nat → Nat := fun _ => 100

example := C95_pad cut100 wo 378 63 (by w)
example := C95_seal_exact cut100 (fun _ => cut100) toyHash (by w) wp wq 3 2 (by w) (by w) (by w) wf wiv (by w) (by w) wD (by w)
example := C95_unseal_exact cut100 cut100 (fun _ => cut100) toyHash (by w) wp wq 3 2 (by w) (by w) (by w) wst.file wiv (by w)
  (sealingOf toyHash wp wq 2 wiv (unsealLongOf toyHash wp 3) (shortOf toyHash wp 3 2)) ⟨rfl, rfl, rfl, rfl, rfl, rfl, rfl, rfl⟩
example := C95_retrieve cut100 cut100 cut100 (fun _ => cut100) (fun _ => cut100) toyHash (by w) wp wq 3 2 (by w) (by w) (by w)
  (by w) wf wiv (by w) (by w) wD (by w)
example := C95_complete toyHash (by w) wp wq 3 2 (by w) (by w) (by w) wf wiv (by w) (fun _ => 128) (fun _ => 200) (fun _ _ => 128)
  (by intro _; decide) (by intro _; decide) (by intro _ _; decide)
example := C113_compress cut100 wf 6 63 64 (by w) (by w)
example := C113_merkle cut100 toyHash wo 378 126 (by w)
example := C113_prepare 100 100 cut100 toyHash (by w) wp wq 3 2 (by w) (by w) wst.file 2 (by w) _ rfl
example := C113_round cut100 cut100 (fun _ => cut100) toyHash toyHash (by w) (by w) wp wq 3 2 (by w) (by w) (by w) (by w) wpub wiv
  (by w) wst.ids (by w) wm.1 wm.2.1 wm.2.2 (by w) wst.file (by w)
example := C115_range cut100 cut100 (fun _ => cut100) toyHash (by w) wp wq 3 2 (by w) (by w) (by w) (by w) wiv wst.file (by w)
example := C58_exact toyHash (by w) wp wq 3 2 (by w) (by w) wiv wo [0, 2] wr.blocks wr.beforeIds wr.dependBlocks
  ⟨by decide +kernel, by decide +kernel, by decide +kernel, by decide +kernel, by decide +kernel⟩

example := C116_seal (params := wp) (by w) toyHash wf (wq : Int) wiv wst
example := C116_unseal (params := wp) (by w) toyHash wst.file (wq : Int) wiv wf
example := C116_prepare (params := wp) (by w) toyHash wst.file 2
example := C116_range (params := wp) (by w) toyHash wst.file 128 300
example := C116_verify (unitL := 63) (by w) wo 1 [[1], [2]] 126
example := C116_tree toyHash wo (dataLen := 378) (by w) 126
example := C116_runs wp (.inl ⟨by w, by w, by w, by w, by w, by w, by w⟩) toyHash toyHash

/-! ### No short dependencies -/

/-- Two files sealed without short dependencies. -/
def np : PosPara := toyParams 3 2 1 0 1 0 2

theorem ncfg : Config np wq 3 2 := by
  obtain ⟨p, hp, cfg⟩ := toy_config 3 2 1 0 1 0 2 (by norm_num)
  have h : p = wq := by have := wq_int; omega
  rw [← h]
  exact cfg

example := C127_first_block toyHash (by w) np wq 3 2 ncfg (by unfold LongModeOk; decide) (by unfold ShortModeOk; decide) (by w) (by w)
  wf wf wiv [9] (by w) (by w) wu wu _ _ (okd' (by decide +kernel)) (okd' (by decide +kernel)) 1 1 (by w) (by w) (by w) (by w) rfl

end PoS.World
