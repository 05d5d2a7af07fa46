import Verif.Cases.World
import Verif.Properties.Space
import Verif.Properties.SpaceAnswers
import Verif.Properties.SpaceStop
import Verif.Properties.SpaceTable
import Verif.Properties.SpaceTableCount
import Verif.Properties.SpaceCount
import Verif.Properties.SpaceRun
import Verif.Properties.SpaceCircuit

/-
The theorems about proof_of_space applied to a table of eight entries over the field of 103 elements.
-/

namespace PoS.World

/-- Ten round constants. -/
def sc : List (ZMod 103) := [1, 2, 3, 4, 5, 6, 7, 8, 9, 10]

/-- The table of eight entries for key 5. -/
def sf : Bytes := (prepareSpace 3 >>= fun f => markSpace f 5 6 sc 3).toOption.getD []

theorem stable : (prepareSpace 3 >>= fun f => markSpace f 5 6 sc 3) = .ok sf := ok_of_isSome (by decide +kernel)

/-- The slot of `x`. -/
def sslot (x : Nat) : Nat := ((mimc5Df ((x : ZMod 103) + 5) 6 sc).toOption.getD 0).val % 8

theorem mimc_total {q : Nat} (x m : ZMod q) (cs : List (ZMod q)) (hcs : cs.length = 10) : ∃ y, mimc5Df x m cs = .ok y := by
  obtain ⟨slot, h, -⟩ := C38_table (x : ZMod q) m cs hcs 3 (by norm_num) (by norm_num)
  obtain ⟨y, hy, -⟩ := h 0
  exact ⟨y, by rw [Nat.cast_zero, zero_add] at hy; exact hy⟩

theorem sslot_ok (x : Nat) : ∃ Y, mimc5Df ((x : ZMod 103) + 5) 6 sc = .ok Y ∧ sslot x = Y.val % 2 ^ 3 := by
  obtain ⟨y, hy⟩ := mimc_total ((x : ZMod 103) + 5) 6 sc rfl
  exact ⟨y, hy, by unfold sslot; rw [hy]; rfl⟩

example := C36_bit_order [1, 128, 7] 1 7 (by w) (by w)
example := C37_round_trip 13 3 (by w) (by w)
example := C38_table (5 : ZMod 103) 6 sc rfl 3 (by w) (by w)
example := C39_response (5 : ZMod 103) 6 sc rfl 3 (by w) (by w) sc (by w) [0, 1, 2, 3, 4, 5, 6, 7] (by w) 2 (by w)
example := C41_in_range (fun j => j / 3 % 2) 4 3 (by w)
example := C41_every_list_possible 3 (by w) (by w) [0, 7, 5] (by w)
example := C41_too_many_bits (fun j => j % 2) 4 64 (by w) (by w)
example := C48_accepts_iff (q := 103) 6 (fun _ => some false) 1 2 [5, 6, 7] [0, 2] 9 (by w)
example := C48_invalid_proof_accepted (q := 103) 6 1 2 [5, 6, 7] [0, 2] 9 (by w) (by w)

example := C102_assignment (q := 103) (n := 3) (ySize := 7) (by w) (by w) (by w) (by w) (dcs := sc) (hcs := sc) rfl rfl 5 6
  [1, 3] [3, 1] [1, 0] (by w) (by w)
example := C102_any_table (q := 103) (n := 3) (ySize := 7) (by w) (by w) (by w) (by w) (dcs := sc) (hcs := sc) rfl rfl 5 6
  (List.replicate 4 255) [0, 6, 7] 2 (by w) _ _ _ (by
    exact ok_of_isSome (x := response1 (q := 103) (List.replicate 4 255) [0, 6, 7] 5 sc 3 2) (d := ([], [], 0)) (by decide +kernel))
example := C118_mark (5 : ZMod 103) 6 sc rfl 3 (by w) (by w) sslot sslot_ok (List.replicate 4 255) (by w)
example := C118_stopped (5 : ZMod 103) 6 sc rfl 3 (by w) (by w) sslot sslot_ok (List.replicate 4 255) (by w)
example := C118_again (5 : ZMod 103) 6 sc rfl 3 (by w) (by w) (List.replicate 4 255) (by w)
example := C118_flagged (5 : ZMod 103) 6 sc rfl 3 (by w) (by w) sslot sslot_ok (zeros 4) (by w) (by w) _ (okd (by decide +kernel))
  sf (by decide +kernel) (sslot 0) (by w) (by w)
example := C98_count (q := 103) (n := 3) (ySize := 7) (by w) (by w) (by w) (by w) (by w) (dcs := sc) (hcs := sc) rfl rfl 5 6 4 2
  (by w) (fun _ _ _ => some true) (by intros; simp) _ rfl
example := C98_certain (q := 103) (n := 3) (ySize := 7) (by w) (by w) (by w) (by w) (by w) (dcs := sc) (hcs := sc) rfl rfl 5 6 4 2
  (by w) (fun _ _ _ => some true) (by intros; simp)
example := C103_release_round (q := 103) (n := 3) (ySize := 7) (by w) (by w) (by w) (by w) (by w) (dcs := sc) (hcs := sc) rfl rfl
  5 6 4 2 (by w) (fun j => j / 3 % 2) (fun _ _ _ => some true) (by intros; simp) (List.replicate 4 255) (by w) _ rfl
example := C103_run_is_round (q := 103) (n := 3) (ySize := 7) (chCount := 4) (want := 2) sc sc 5 6 (fun j => j / 3 % 2)
  (fun _ _ _ => some true) sf stable
example := C103_ones_pass (q := 103) (n := 3) (ySize := 7) (by w) (by w) (by w) (by w) (by w) (dcs := sc) (hcs := sc) rfl rfl
  5 6 4 2 (by w) (by w) (fun j => j / 3 % 2) (fun _ _ _ => some true) (by intros; simp) 4 (by w)
example := C103_honest (q := 103) (n := 3) (ySize := 7) (by w) (by w) (by w) (by w) (by w) (dcs := sc) (hcs := sc) rfl rfl
  5 6 4 2 (by w) (fun j => j / 3 % 2) (fun _ _ _ => some true) (by intros; simp)
example := C104_count (q := 103) (n := 3) (ySize := 7) (by w) (by w) (by w) (by w) (by w) (by w) (dcs := sc) (hcs := sc) rfl rfl
  5 6 4 2 (by w) (fun _ _ _ => some true) (by intros; simp) [0x90, 0, 0x80, 0] (by w) _ rfl _ _ rfl rfl
example := C104_bound (q := 103) (n := 3) (ySize := 7) (by w) (by w) (by w) (by w) (by w) (by w) (dcs := sc) (hcs := sc) rfl rfl
  5 6 4 2 (by w) (fun _ _ _ => some true) (by intros; simp) [0x90, 0, 0x80, 0] (by w) _ rfl _ rfl
example := C104_release (q := 103) (n := 3) (ySize := 7) (by w) (by w) (by w) (by w) (by w) (dcs := sc) (hcs := sc) rfl rfl
  5 6 4 2 (by w) (fun _ _ _ => some true) (by intros; simp) [0x90, 0, 0x80, 0] (by w) _ rfl

end PoS.World
