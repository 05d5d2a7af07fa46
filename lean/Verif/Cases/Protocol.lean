import Verif.Cases.World
import Verif.Properties.Merkle
import Verif.Properties.Protocol
import Verif.Properties.Verdict
import Verif.Properties.Workflow
import Verif.Properties.ChallengeCount
import Verif.Properties.Replica
import Verif.Properties.Binding
import Verif.Properties.Layers
import Verif.Properties.StaticVerify
import Verif.Properties.Interrupt
import Verif.Properties.Live

/-
The theorems about challenges, verdicts, trees and the workflow applied to the concrete world.
-/

namespace PoS.World

theorem whonest : Honest toyHash toyHash wp wq 3 2 wo wf wiv wpub wst wm.1 wm.2.1 wm.2.2 :=
  ⟨by w, by w, by w, by w, by w, by w, by w, by w, by w, ⟨[], rfl⟩, by w, by w, by w⟩

/-! ### Challenges and verdicts -/

example := C04_round whonest 7 [0, 2] (by w) (by w) (by w)
example := C59_round_without_sealed_file toyHash toyHash (by w) (by w) wp wq 3 2 (by w) (by w) (by w) wo wiv [] (by w) (by w)
  wst.ids (by w) wm.1 wm.2.1 wm.2.2 (by w) [0, 2] (by w) (by w) (by w) (fun k => [UInt8.ofNat k]) (fun _ => [[[1], [2]]]) (by
    intro k d hd
    rw [List.mem_singleton.mp hd]
    rfl) 7

theorem waccepted : verifierCheck toyHash toyHash wp wo wpub wm.1 wm.2.2 7 [0, 2] wr 0 [] = .ok (some ()) := by
  obtain ⟨resp, h, hacc, -⟩ := C04_round whonest 7 [0, 2] (by w) (by w) (by w)
  rw [wrespond] at h
  rw [Except.ok.inj h]
  exact hacc []

example := C68_hash_checked toyHash toyHash wp wo wpub wm.1 wm.2.2 7 [0, 2] wr 0 [] _ waccepted
example := C68_hash_binds toyHash toyHash wp wo wpub wpub wm.1 wm.1 wm.2.2 wm.2.2 7 7 [0, 2] [0, 2] wr wr 0 0 [] [] _ _
  waccepted waccepted rfl
example := C68_prover_hash toyHash wp wq 3 2 (by w) wst.file wm.2.1 7 [0, 2] wr (by w)
example := (C74_accepted_iff toyHash toyHash wp 2 (by w) (by w) wo wpub wm.1 wm.2.2 7 [0, 2] wr 0 []).mp waccepted
example := C87_verdict toyHash toyHash wp wo wpub (saveData [] (wq : Int) [9]) wm.1 wm.2.2 7 [2] wr 0 [] (wq : Int) wiv [9]
  (by w) (C17_load_save [] (wq : Int) [9] (by w) (by w)) (by w)

/-! ### Trees -/

example := C31_completeness toyHash (by w) wst.ids (by w) [0, 2] (by w) (by w) (by w)
example := C31_empty_challenge_rejected toyHash wr.proof wm.2.2 wm.1 (by w)
example := C32_binding toyHash (by w) wst.ids wm.1 wm.2.1 wm.2.2 (by w) wm.1 (by w) (by w) wr.proof (by w) [0, 2] (by w) (by w)
example := C32_leaf_count_not_bound toyHash wm.1 (by w)
example := C32_trailing_hashes_ignored toyHash wr.proof [[5]] wm.2.2 [0, 2] wm.1 (by w)

/-- Two files that differ in the first block only have the same root. -/
def wt : List Bytes × MerkleTree × Bytes :=
  (generateMerkleTreeFromFile toyHash wo 378 126).toOption.getD ([], ⟨[]⟩, [])

theorem wtree : generateMerkleTreeFromFile toyHash wo 378 126 = .ok (wt.1, wt.2.1, wt.2.2) := by
  have h : generateMerkleTreeFromFile toyHash wo 378 126 = .ok wt :=
    ok_of_isSome (d := ([], ⟨[]⟩, [])) (by decide +kernel)
  exact h

example := C30_leaves toyHash wo 378 126 (by w) (by w)
example := C30_first_leaf_ignored toyHash wo (wo.set 3 99) 378 126 (by w)
example := C30_equal_roots toyHash (by w) wo (wo.set 3 99) 378 126 wt.1 wt.1 wt.2.1 wt.2.1 wt.2.2 wtree
  ((C30_first_leaf_ignored toyHash wo (wo.set 3 99) 378 126 (by w)) ▸ wtree)
example := C75_root toyHash wst.ids (by w)
example := C75_file_root toyHash wo 3 126 (by w) (by w)

/-- Draws 0, 1, 2, …. -/
theorem wchal : createChallenges id 2 0 3 5 = .ok (some [0, 1]) := by decide +kernel

example := C24_sorted_distinct id 2 0 3 5 [0, 1] wchal
example := C24_exact id 2 0 3 5 [0, 1] wchal
example := C24_too_many_diverges id 4 0 3 (by w) (by w) 100
example := C24_terminates id 2 0 3 5 (by w) [0, 2] (by w) (by w) (by
  intro x hx
  refine ⟨x, ?_, ?_⟩ <;> rcases List.mem_pair.mp hx with rfl | rfl <;> decide)
example := C70_decides toyHash (by w) wo wo 3 126 2 (by w) (by w) id 5 [0, 1] wchal wt.1 wt.1 wt.2.1 wt.2.1 wt.2.2 wt.2.2
  wtree wtree
example := C70_complete toyHash (by w) wo (wo.set 3 99) 3 126 2 (by w) (by w) id 5 (by w) [0, 1] wchal
example := C70_sound toyHash (by w) wo (wo.set 3 99) 3 126 2 (by w) id 5
  (C70_complete toyHash (by w) wo (wo.set 3 99) 3 126 2 (by w) (by w) id 5 (by w) [0, 1] wchal)
example := C105_uniform 0 3 2 4 {0, 1} {1, 2} (by decide) (by decide) (by decide)
example := C105_share 0 3 2 4 (by w) {0, 1} (by decide) (by decide)
example := C105_unfinished 0 3 2 4 (by w) (by w)
example := C105_round toyHash toyHash (by w) (by w) wp wq 3 2 (by w) (by w) (by w) (by w) (by w) wo wpub wiv (by w) wst.ids (by w)
  wm.1 wm.2.1 wm.2.2 (by w) (wst.file.set 300 9) (by w)

/-! ### Stopped and concurrent work -/

example := C96_resume toyHash (by w) wp wq 3 2 (by w) (by w) (by w) wst.file wiv (by w) 1 20 (by w) (by w) _ _
  (okd (by decide +kernel)) (okd (by decide +kernel))
example := C96_rerun toyHash (by w) wp wq 3 2 (by w) (by w) (by w) wst.file wiv (by w) 1 20 (by w) (by w) _ _
  (okd (by decide +kernel)) (okd (by decide +kernel))
  (sealingOf toyHash wp wq 2 wiv (unsealLongOf toyHash wp 3) (shortOf toyHash wp 3 2)) ⟨rfl, rfl, rfl, rfl, rfl, rfl, rfl, rfl⟩
example := C96_seal_again toyHash (by w) wp wq 3 2 (by w) (by w) (by w) (by w) wo wf wiv (by w) (by w) 1 20 (by w) (by w) _
  (okd (by decide +kernel))
/-- Block 0 is read while block 1 is being written. -/
example := C119_sealing toyHash (by w) wp wq 3 2 (by w) (by w) (by w) (by w) wf wiv (by w) (by w) [0] (by w) (by w)
  (fun _ => (sealStopped toyHash wp wf (wq : Int) wiv 1 20).toOption.getD []) (fun _ => wf) (fun _ _ => wf)
  (fun k hk => by
    rw [List.mem_singleton.mp hk]
    exact .inl ⟨1, 20, by w, by w, by w, ok_of_isSome (by decide +kernel)⟩)
  (fun k hk h => absurd (List.mem_singleton.mp hk) h)
  (fun k hk h => absurd (List.mem_singleton.mp hk) h)
example := C119_unsealing toyHash toyHash (by w) wp wq 3 2 (by w) (by w) (by w) wst.file wiv (by w) [0]
  (fun _ => (unsealStopped toyHash wp wst.file (wq : Int) wiv 1 20).toOption.getD []) (fun _ => wf) (fun _ _ => wf)
  (fun k hk => by
    rw [List.mem_singleton.mp hk]
    exact .inr ⟨1, 20, by w, by w, .inl (by w), ok_of_isSome (by decide +kernel)⟩)
  (fun k hk h => absurd (List.mem_singleton.mp hk) h)
  (fun k hk h => absurd (List.mem_singleton.mp hk) h)

/-! ### Two files, several layers -/

example := C121_same_identifiers toyHash (by w) wp wq 3 2 (by w) (by w) (by w) wo wo wf wf wiv (by w) (by w) (by w) (by w)
  wst wst (by w) (by w) (by w) (by w) rfl
example := C121_root toyHash toyHash (by w) (by w) wp wq 3 2 (by w) (by w) (by w) wo wo wf wf wiv (by w) (by w) (by w) (by w)
  wst wst (by w) (by w) (by w) (by w) wm.1 wm.1 wm.2.1 wm.2.1 wm.2.2 (by w) (by w)
example := C58_honest toyHash (by w) wp wq 3 2 (by w) (by w) wo (by w) wiv wf (by w) wst (by w) (by w) [2, 0] (by w)
example := C25_prepare_modes toyHash (by w) wp wq 3 2 (by w) (by w) wst.file 128 300 (by w) (by w) _ rfl
example := C26_prepare_modes toyHash (by w) wp wq 3 2 (by w) (by w) wst.file 100 300 (by w) (by w) _ rfl

/-! ### The workflow, on ten blocks -/

/-- Ten blocks of one unit. -/
def tp : PosPara := toyParams 10 1 0 0 0 1 1
def to_ : Bytes := toyFile 630
def tf : Bytes := (copyAndPad to_ tp.dataL tp.unitL).toOption.getD []
def tst : SealState := (sealFile toyHash tp tf (wq : Int) wiv).toOption.getD ⟨[], [], []⟩

theorem tcfg : Config tp wq 10 1 := by
  obtain ⟨p, hp, cfg⟩ := toy_config 10 1 0 0 0 1 1 (by norm_num)
  have h : p = wq := by
    have h2 : ((wq : Nat) : Int) = P_512 := Int.toNat_of_nonneg (by decide +kernel)
    omega
  rw [← h]
  exact cfg

example := C72_honest_accepted toyHash (by w) tp wq 10 1 tcfg (by w) (by w) to_ tf wiv wpub (by w)
  (ok_of_isSome (by decide +kernel)) tst (ok_of_isSome (by decide +kernel)) (by w) none (by w)

theorem tacc : unsealSingleAndVerify toyHash tp ⟨some to_, some tst.file, none, some wpub⟩ 0 [] = .ok (some ()) :=
  (C72_honest_accepted toyHash (by w) tp wq 10 1 tcfg (by w) (by w) to_ tf wiv wpub (by w)
    (ok_of_isSome (by decide +kernel)) tst (ok_of_isSome (by decide +kernel)) (by w) none (by w)).1 []

example := (C72_accepted_iff toyHash tp 1 (by w) (by w) to_ tst.file wpub none 0 []).mp tacc

theorem trun : testPostorage toyHash toyHash tp ⟨false, false, false, true⟩ 0 ⟨fun _ => 0, fun _ => 0, [], id, 5⟩
    ⟨some to_, some tst.file, none, some wpub⟩ = .ok (some ⟨some to_, some tst.file, none, some wpub⟩) := by
  decide +kernel

example := C73_accepted_single toyHash toyHash tp _ 0 _ _ _ rfl trun
example := C73_accepted_challenge toyHash toyHash (by w) tp 10 (by w) (by w) _ 0 _ _ _ trun

end PoS.World
