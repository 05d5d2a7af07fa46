import Verif.Cases.Protocol
import Verif.Properties.Cost

/-
C128 applied to the concrete world: blocks 0 and 2 of three are answered without sealing anything.
-/

namespace PoS.World

/-- What `sealRoundsLoop` makes of block `k` of the original without any dependencies. -/
def fblock (k : Nat) : List Bytes × List Nat :=
  (sealRoundsLoop toyHash wp (wq : Int) wiv [] (List.replicate k []) [] 2 k
    ((List.range 2).map (fun j => readFile wo (k * wp.blockL + j * wp.unitL) wp.unitL ++ [0]), [])).toOption.getD ([], [])

example : (fblock 0).2.length = 4 ∧ (fblock 2).2.length = 4 ∧ wst.log.length = 12 ∧
    (∀ v ∈ (fblock 0).2 ++ (fblock 2).2, v ≠ 0) ∧ (fblock 2).1 ≠ plainUnits wp 2 wst.file 2 := by decide +kernel

/-- The round on blocks 0 and 2 with the tree of the honest identifiers: eight encodings, and accepted. -/
example : ∃ resp : Response, resp.dependBlocks = [[], []] ∧ resp.blocks = [(fblock 0).1, (fblock 2).1] ∧
    verifierCheck toyHash toyHash wp wo wpub wm.1 wm.2.2 7 [0, 2] resp 0 [] = .ok (some ()) := by
  obtain ⟨⟨block, log, h1, h2⟩, -⟩ := C128_never_sealed toyHash toyHash (by w) (by w) wp wq 3 2 (by w) (by w) (by w) wo wpub wiv
    (by w)
  have hb : ∀ k, fblock k = (block k, log k) := fun k => by
    unfold fblock; rw [(h1 k).1]; rfl
  obtain ⟨-, h⟩ := h2 wst.ids wm.1 wm.2.1 wm.2.2 (by w) (by w) [0, 2] 7 (by w) (by w) (by w)
  obtain ⟨proof, -, h, -⟩ := h (by
    have : ∀ v ∈ (fblock 0).2 ++ (fblock 2).2, v ≠ 0 := by decide +kernel
    rw [hb 0, hb 2] at this
    simpa using this)
  refine ⟨_, ?_, ?_, h⟩
  · rfl
  · rw [hb 0, hb 2]; rfl

end PoS.World
