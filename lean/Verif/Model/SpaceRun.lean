import Verif.Model.Circuits
import Verif.Model.Space

/-
Model of the whole run `pospace` of /repo/proof_of_space/src/proof_of_space/pospace.rs.
-/

namespace PoS

/-- Decision procedure for `cs.is_satisfied()` (ark-relations). -/
instance {F : Type} [CommRing F] [DecidableEq F] (cons : List (LC F × LC F × LC F)) (a : List F × List F) :
    Decidable (Satisfies cons a) :=
  inferInstanceAs (Decidable (∀ c ∈ cons, evalLC a c.1 * evalLC a c.2.1 = evalLC a c.2.2))

/-- `pospace`, pospace.rs 43-75, for parameters `n` (`N`), `ySize` (`Y_SIZE`), `chCount`
(`CHALLENGE_COUNT`) and `want` (`RESPONSE_COUNT`); the result is `idx_response.len()`, which is
written to the statistics (pospace.rs 78).  `draw` are the random bits of the challenges.
Simplifications: time measurements and the statistics file are left out.  `create_random_proof`
(ark-groth16 0.3) asserts in the debug profile that the assignment satisfies the circuit; the proof
itself is opaque, `prove pk s` is the outcome of the pairing check of the proof made with the key of
the constraint system `pk` from the system and assignment `s`, as a function of the inputs used for
verification. -/
def pospaceRun {q : Nat} (n ySize chCount want : Nat) (dfConstants hashConstants : List (ZMod q)) (key m : ZMod q)
    (draw : Nat → Nat) (prove : CS (ZMod q) → CS (ZMod q) → List (ZMod q) → Option Bool) : R Nat := do
  let f ← prepareSpace n
  let file ← markSpace f key m dfConstants n
  let challenges ← spaceChallenges draw chCount n
  let r ← response1 file challenges key hashConstants n want
  let pk ← constructCircuit n ySize want dfConstants hashConstants
  let s ← response2 n ySize key r.1 m dfConstants challenges r.2.1 hashConstants
  if Satisfies s.2.cons (s.2.inst, s.2.wit) then do
    spaceVerify (pk.2.nInst + 1) (prove pk.2 s.2) key m challenges r.2.1 r.2.2
    pure r.2.1.length
  else .error .assertion

end PoS
