import Verif.Model.SpaceRun

/-
Model of `pospace` of /repo/proof_of_space/src/proof_of_space/pospace.rs for a table that was not
necessarily made by `mark_space`, and for a release build.
-/

namespace PoS

/-- `pospace` from the challenges on, pospace.rs 52-74, with the content `file` of the table as it is
found on the disk; debug build, simplifications as for `pospaceRun`. -/
def spaceRound {q : Nat} (n ySize chCount want : Nat) (dfConstants hashConstants : List (ZMod q)) (key m : ZMod q)
    (file : Bytes) (draw : Nat → Nat) (prove : CS (ZMod q) → CS (ZMod q) → List (ZMod q) → Option Bool) : R Nat := do
  let challenges ← spaceChallenges draw chCount n
  let r ← response1 file challenges key hashConstants n want
  let pk ← constructCircuit n ySize want dfConstants hashConstants
  let s ← response2 n ySize key r.1 m dfConstants challenges r.2.1 hashConstants
  if Satisfies s.2.cons (s.2.inst, s.2.wit) then do
    spaceVerify (pk.2.nInst + 1) (prove pk.2 s.2) key m challenges r.2.1 r.2.2
    pure r.2.1.length
  else .error .assertion

/-- The same in a release build: `create_random_proof` of ark-groth16 0.3 checks the assignment only
with a `debug_assert!`, so a proof is made in any case.  Simplification: arithmetic overflow is left
as in the debug build; it does not occur for `n < 64`. -/
def spaceRoundR {q : Nat} (n ySize chCount want : Nat) (dfConstants hashConstants : List (ZMod q)) (key m : ZMod q)
    (file : Bytes) (draw : Nat → Nat) (prove : CS (ZMod q) → CS (ZMod q) → List (ZMod q) → Option Bool) : R Nat := do
  let challenges ← spaceChallenges draw chCount n
  let r ← response1 file challenges key hashConstants n want
  let pk ← constructCircuit n ySize want dfConstants hashConstants
  let s ← response2 n ySize key r.1 m dfConstants challenges r.2.1 hashConstants
  spaceVerify (pk.2.nInst + 1) (prove pk.2 s.2) key m challenges r.2.1 r.2.2
  pure r.2.1.length

/-- `pospace`, pospace.rs 43-75, in a release build. -/
def pospaceRunR {q : Nat} (n ySize chCount want : Nat) (dfConstants hashConstants : List (ZMod q)) (key m : ZMod q)
    (draw : Nat → Nat) (prove : CS (ZMod q) → CS (ZMod q) → List (ZMod q) → Option Bool) : R Nat := do
  let f ← prepareSpace n
  let file ← markSpace f key m dfConstants n
  spaceRoundR n ySize chCount want dfConstants hashConstants key m file draw prove

end PoS
