import Verif.Model.R1cs
import Verif.Model.Mimc
import Verif.Model.Convert
import Mathlib.Algebra.Field.Defs
import Mathlib.Data.ZMod.Basic

/-
Model of /repo/proof_of_space/src/circuit/*.rs.  Names ending in `v` are the `_val`/`_value`
variables of the code.
-/

namespace PoS

variable {F : Type} [CommRing F]

/-- The loop variables of the Feistel circuits: `xl`, `xl_value`, `xr`, `xr_value`. -/
structure DfSt (F : Type) where
  xl : Var
  xlv : Option F
  xr : Var
  xrv : Option F

/-- One round of `MiMC3DFDemo`, mimc3_df_circuit.rs 37-85. -/
def mimc3DfRound (constants : List F) (i : Nat) (st : DfSt F) : Syn F (DfSt F) := do
  let c ← lift (at! constants i)
  let tmpv := st.xlv.map (fun e => (e + c) * (e + c))
  let tmp ← newWit tmpv
  enforce [(1, st.xl), (c, .one)] [(1, st.xl), (c, .one)] [(1, tmp)]
  let newv ← lift (mapOpt st.xlv (fun e => do
    let t ← unwrap! tmpv
    let r ← unwrap! st.xrv
    pure ((e + c) * t + r)))
  let new ← (if i + 1 = MIMC3_DF_ROUNDS then newInput newv else newWit newv)
  enforce [(1, tmp)] [(1, st.xl), (c, .one)] [(1, new), (-1, st.xr)]
  pure ⟨new, newv, st.xl, st.xlv⟩

/-- `MiMC3DFDemo::generate_constraints`, mimc3_df_circuit.rs 26-88. -/
def mimc3DfCircuit (xl xr : Option F) (constants : List F) : Syn F Unit := do
  if constants.length ≠ MIMC3_DF_ROUNDS then lift (.error .assertion)
  else do
    let l ← newWit xl
    let r ← newWit xr
    let _ ← synUp MIMC3_DF_ROUNDS (mimc3DfRound constants) ⟨l, xl, r, xr⟩
    pure ()

/-- One round of `MiMC5DFDemo`, mimc5_df_circuit.rs 37-98. -/
def mimc5DfRound (constants : List F) (i : Nat) (st : DfSt F) : Syn F (DfSt F) := do
  let c ← lift (at! constants i)
  let tmp1v := st.xlv.map (fun e => (e + c) * (e + c))
  let tmp1 ← newWit tmp1v
  enforce [(1, st.xl), (c, .one)] [(1, st.xl), (c, .one)] [(1, tmp1)]
  let tmp2v := tmp1v.map (fun e => e * e)
  let tmp2 ← newWit tmp2v
  enforce [(1, tmp1)] [(1, tmp1)] [(1, tmp2)]
  let newv ← lift (mapOpt st.xlv (fun e => do
    let t ← unwrap! tmp2v
    let r ← unwrap! st.xrv
    pure ((e + c) * t + r)))
  let new ← (if i + 1 = MIMC5_DF_ROUNDS then newInput newv else newWit newv)
  enforce [(1, tmp2)] [(1, st.xl), (c, .one)] [(1, new), (-1, st.xr)]
  pure ⟨new, newv, st.xl, st.xlv⟩

/-- `MiMC5DFDemo::generate_constraints`, mimc5_df_circuit.rs 26-101. -/
def mimc5DfCircuit (xl xr : Option F) (constants : List F) : Syn F Unit := do
  if constants.length ≠ MIMC5_DF_ROUNDS then lift (.error .assertion)
  else do
    let l ← newWit xl
    let r ← newWit xr
    let _ ← synUp MIMC5_DF_ROUNDS (mimc5DfRound constants) ⟨l, xl, r, xr⟩
    pure ()

/-- A variable with its value, as the loops of the hash circuits carry it. -/
structure VarVal (F : Type) where
  var : Var
  val : Option F

/-- The variable `t` of a hash round, mimc5_hash_circuit.rs 45-73 (the same lines in
mimc7_hash_circuit.rs and, as 303-331, in pospace_circuit.rs). -/
def hashT (constants : List F) (xIn key : VarVal F) (j : Nat) (h : VarVal F) : Syn F (VarVal F) := do
  if j = 0 then do
    let tv ← lift (mapOpt xIn.val (fun e => do
      let k ← unwrap! key.val
      pure (e + k)))
    let t ← newWit tv
    enforce [(1, xIn.var), (1, key.var)] [(1, .one)] [(1, t)]
    pure ⟨t, tv⟩
  else do
    let c ← lift (at! constants j)
    let tv ← lift (mapOpt h.val (fun e => do
      let k ← unwrap! key.val
      pure (e + k + c)))
    let t ← newWit tv
    enforce [(1, h.var), (1, key.var), (c, .one)] [(1, .one)] [(1, t)]
    pure ⟨t, tv⟩

/-- One round of `MiMC5HashDemo`, mimc5_hash_circuit.rs 44-113 (in pospace_circuit.rs 302-371). -/
def mimc5HashRound (constants : List F) (xIn key : VarVal F) (j : Nat) (h : VarVal F) : Syn F (VarVal F) := do
  let t ← hashT constants xIn key j h
  let t2v := t.val.map (fun e => e * e)
  let t2 ← newWit t2v
  enforce [(1, t.var)] [(1, t.var)] [(1, t2)]
  let t4v := t2v.map (fun e => e * e)
  let t4 ← newWit t4v
  enforce [(1, t2)] [(1, t2)] [(1, t4)]
  let t5v ← lift (mapOpt t4v (fun e => do
    let x ← unwrap! t.val
    pure (e * x)))
  let t5 ← newWit t5v
  enforce [(1, t4)] [(1, t.var)] [(1, t5)]
  pure ⟨t5, t5v⟩

/-- One round of `MiMC7HashDemo`, mimc7_hash_circuit.rs 44-125. -/
def mimc7HashRound (constants : List F) (xIn key : VarVal F) (j : Nat) (h : VarVal F) : Syn F (VarVal F) := do
  let t ← hashT constants xIn key j h
  let t2v := t.val.map (fun e => e * e)
  let t2 ← newWit t2v
  enforce [(1, t.var)] [(1, t.var)] [(1, t2)]
  let t4v := t2v.map (fun e => e * e)
  let t4 ← newWit t4v
  enforce [(1, t2)] [(1, t2)] [(1, t4)]
  let t6v ← lift (mapOpt t4v (fun e => do
    let x ← unwrap! t2v
    pure (e * x)))
  let t6 ← newWit t6v
  enforce [(1, t4)] [(1, t2)] [(1, t6)]
  let t7v ← lift (mapOpt t6v (fun e => do
    let x ← unwrap! t.val
    pure (e * x)))
  let t7 ← newWit t7v
  enforce [(1, t6)] [(1, t.var)] [(1, t7)]
  pure ⟨t7, t7v⟩

/-- One input of the hash circuits, mimc5_hash_circuit.rs 33-146, mimc7_hash_circuit.rs 33-159,
pospace_circuit.rs 291-405; `round` is the round of the respective circuit. -/
def hashInput (rounds : Nat) (round : VarVal F → VarVal F → Nat → VarVal F → Syn F (VarVal F))
    (xs : List (Option F)) (i : Nat) (res : VarVal F) : Syn F (VarVal F) := do
  let xv ← lift (at! xs i)
  let x ← newWit xv
  let keyv := res.val
  let key ← newWit keyv
  let h ← newWit (some 0)
  let h ← synUp rounds (round ⟨x, xv⟩ ⟨key, keyv⟩) ⟨h, some 0⟩
  let newHv ← lift (mapOpt h.val (fun e => do
    let k ← unwrap! keyv
    pure (e + k)))
  let newH ← newWit newHv
  enforce [(1, h.var), (1, key)] [(1, .one)] [(1, newH)]
  let newv ← lift (mapOpt res.val (fun e => do
    let x ← unwrap! xv
    let nh ← unwrap! newHv
    pure (e + x + nh)))
  let new ← (if i + 1 = xs.length then newInput newv else newWit newv)
  enforce [(1, res.var), (1, x), (1, newH)] [(1, .one)] [(1, new)]
  pure ⟨new, newv⟩

/-- `MiMC5HashDemo::generate_constraints`, mimc5_hash_circuit.rs 26-150. -/
def mimc5HashCircuit (xs : List (Option F)) (key : Option F) (constants : List F) : Syn F Unit := do
  if constants.length ≠ MIMC5_HASH_ROUNDS then lift (.error .assertion)
  else do
    let res ← newWit key
    let _ ← synUp xs.length (hashInput MIMC5_HASH_ROUNDS (mimc5HashRound constants) xs) ⟨res, key⟩
    pure ()

/-- `MiMC7HashDemo::generate_constraints`, mimc7_hash_circuit.rs 26-162. -/
def mimc7HashCircuit (xs : List (Option F)) (key : Option F) (constants : List F) : Syn F Unit := do
  if constants.length ≠ MIMC7_HASH_ROUNDS then lift (.error .assertion)
  else do
    let res ← newWit key
    let _ ← synUp xs.length (hashInput MIMC7_HASH_ROUNDS (mimc7HashRound constants) xs) ⟨res, key⟩
    pure ()

/-- `INPUT_SIZE`, pow_circuit.rs 9. -/
def POW_INPUT_SIZE : Nat := 20

/-- The field value of an optional bit, pow_circuit.rs 34-40 (equal_circuit.rs 38-44): any
other number than 0 or 1 counts as missing. -/
def bitVal (b : Option Nat) : Option F :=
  if b = some 1 then some 1 else if b = some 0 then some 0 else none

/-- The loop variables of `PowDemo`: `y`, `g` with their values. -/
structure PowSt (F : Type) where
  y : VarVal F
  g : VarVal F

/-- One round of `PowDemo`, pow_circuit.rs 32-120. -/
def powRound (bits : List (Option Nat)) (i : Nat) (st : PowSt F) : Syn F (PowSt F) := do
  let b ← lift (at! bits i)
  let bv : Option F := bitVal b
  let bit ← newWit bv
  enforce [(1, bit)] [(1, bit)] [(1, bit)]
  let tmp1v ← lift (mapOpt st.g.val (fun e => do
    let b ← unwrap! bv
    pure (e * b)))
  let tmp1 ← newWit tmp1v
  enforce [(1, st.g.var)] [(1, bit)] [(1, tmp1)]
  let tmp2v ← lift (mapOpt tmp1v (fun e => do
    let b ← unwrap! bv
    pure (e + 1 - b)))
  let tmp2 ← newWit tmp2v
  enforce [(1, tmp1), (1, .one)] [(1, .one)] [(1, tmp2), (1, bit)]
  let newyv ← lift (mapOpt tmp2v (fun e => do
    let y ← unwrap! st.y.val
    pure (e * y)))
  let newy ← (if i + 1 = POW_INPUT_SIZE then newInput newyv else newWit newyv)
  enforce [(1, st.y.var)] [(1, tmp2)] [(1, newy)]
  let newgv := st.g.val.map (fun e => e * e)
  let newg ← newWit newgv
  enforce [(1, st.g.var)] [(1, st.g.var)] [(1, newg)]
  pure ⟨⟨newy, newyv⟩, ⟨newg, newgv⟩⟩

/-- `PowDemo::generate_constraints`, pow_circuit.rs 20-123. -/
def powCircuit (g : Option F) (bits : List (Option Nat)) : Syn F Unit := do
  if bits.length ≠ POW_INPUT_SIZE then lift (.error .assertion)
  else do
    let y ← newWit (some 1)
    let gg ← newWit g
    let _ ← synUp POW_INPUT_SIZE (powRound bits) ⟨⟨y, some 1⟩, ⟨gg, g⟩⟩
    pure ()

/-- `INPUT_SIZE`, equal_circuit.rs 9. -/
def EQUAL_INPUT_SIZE : Nat := 256

/-- The loop variables of `EqualDemo`: `two`, `x` with their values. -/
structure EqSt (F : Type) where
  two : VarVal F
  x : VarVal F

/-- One round of `EqualDemo`, equal_circuit.rs 36-116. -/
def equalRound (x1 x2 : Option F) (bits : List (Option Nat)) (difficulty : Nat) (i : Nat) (st : EqSt F) :
    Syn F (EqSt F) := do
  let b ← lift (at! bits i)
  let bv : Option F := bitVal b
  let bit ← newWit bv
  enforce [(1, bit)] [(1, bit)] [(1, bit)]
  let tmp1v ← lift (mapOpt bv (fun e => do
    let t ← unwrap! st.two.val
    pure (e * t)))
  let tmp1 ← newWit tmp1v
  enforce [(1, bit)] [(1, st.two.var)] [(1, tmp1)]
  let tmp2v ← lift (mapOpt tmp1v (fun e => do
    let x ← unwrap! st.x.val
    pure (e + x)))
  let tmp2 ← newWit tmp2v
  enforce [(1, tmp1), (1, st.x.var)] [(1, .one)] [(1, tmp2)]
  let d ← lift (sub! difficulty 1)
  (if i = d then do
    let x1 ← newInput x1
    enforce [(1, tmp2)] [(1, .one)] [(1, x1)]
  else pure ())
  (if i + 1 = EQUAL_INPUT_SIZE then do
    let x2 ← newInput x2
    enforce [(1, tmp2)] [(1, .one)] [(1, x2)]
  else pure ())
  let newtwov := st.two.val.map (fun e => e * (1 + 1))
  let newtwo ← newWit newtwov
  enforce [(1, st.two.var)] [(1 + 1, .one)] [(1, newtwo)]
  pure ⟨⟨newtwo, newtwov⟩, ⟨tmp2, tmp2v⟩⟩

/-- `EqualDemo::generate_constraints`, equal_circuit.rs 24-120. -/
def equalCircuit (x1 x2 : Option F) (bits : List (Option Nat)) (difficulty : Nat) : Syn F Unit := do
  if bits.length ≠ EQUAL_INPUT_SIZE then lift (.error .assertion)
  else do
    let two ← newWit (some 1)
    let x ← newWit (some 0)
    let _ ← synUp EQUAL_INPUT_SIZE (equalRound x1 x2 bits difficulty) ⟨⟨two, some 1⟩, ⟨x, some 0⟩⟩
    pure ()

/-! ### The space circuit -/

/-- `Y_SIZE`, pospace_circuit.rs 14. -/
def Y_SIZE : Nat := 256
/-- `N`, pospace.rs 21. -/
def SPACE_N : Nat := 20

/-- The field value of an optional bit, pospace_circuit.rs 137-147 and 217-227. -/
def boolVal (b : Option Bool) : Option F :=
  if b = some true then some 1 else if b = some false then some 0 else none

/-- The first `len` of the 256 bits of an optional field element, pospace_circuit.rs 118-127
and 197-206. -/
def bitsOpt {q : Nat} (v : Option (ZMod q)) (len : Nat) : R (List (Option Bool)) :=
  v.elim (.ok (List.replicate len none))
    (fun x => do
      let bits ← slice! (bitsOf 256 x.val) 0 len
      .ok (bits.map some))

/-- One Feistel round of `PospaceDemo`, pospace_circuit.rs 75-114. -/
def spaceDfRound (constants : List F) (j : Nat) (st : DfSt F) : Syn F (DfSt F) := do
  let c ← lift (at! constants j)
  let tmp1v := st.xlv.map (fun e => (e + c) * (e + c))
  let tmp1 ← newWit tmp1v
  enforce [(1, st.xl), (c, .one)] [(1, st.xl), (c, .one)] [(1, tmp1)]
  let tmp2v := tmp1v.map (fun e => e * e)
  let tmp2 ← newWit tmp2v
  enforce [(1, tmp1)] [(1, tmp1)] [(1, tmp2)]
  let newv ← lift (mapOpt st.xlv (fun e => do
    let t ← unwrap! tmp2v
    let r ← unwrap! st.xrv
    pure ((e + c) * t + r)))
  let new ← newWit newv
  enforce [(1, tmp2)] [(1, st.xl), (c, .one)] [(1, new), (-1, st.xr)]
  pure ⟨new, newv, st.xl, st.xlv⟩

/-- The common part of the two bit loops, pospace_circuit.rs 148-183 and 228-262: the bit, the
sum so far and the next power of two. -/
def bitStep (b : Option Bool) (st : EqSt F) : Syn F (EqSt F) := do
  let bv : Option F := boolVal b
  let bit ← newWit bv
  enforce [(1, bit)] [(1, bit)] [(1, bit)]
  let tmpv ← lift (mapOpt bv (fun e => do
    let t ← unwrap! st.two.val
    let y ← unwrap! st.x.val
    pure (e * t + y)))
  let tmp ← newWit tmpv
  enforce [(1, bit)] [(1, st.two.var)] [(1, tmp), (-1, st.x.var)]
  let newtwov := st.two.val.map (fun e => e * (1 + 1))
  let newtwo ← newWit newtwov
  enforce [(1, st.two.var)] [(1 + 1, .one)] [(1, newtwo)]
  pure ⟨⟨newtwo, newtwov⟩, ⟨tmp, tmpv⟩⟩

/-- The inner loop over the bits of `yn[i]`, pospace_circuit.rs 196-281; `y` is the sum of the
outer loop so far. -/
def ynBlock {q : Nat} (n : Nat) (ynv : Option (ZMod q)) (y : Var) : Syn (ZMod q) Unit := do
  let bits ← lift (bitsOpt ynv n)
  let yn ← newWit (some 0)
  let two ← newWit (some 1)
  let _ ← synUp bits.length (fun m st => do
    let b ← lift (at! bits m)
    let st ← bitStep b st
    (if m + 1 = bits.length then do
      let yyn ← newInput ynv
      enforce [(1, yyn)] [(1, .one)] [(1, st.x.var)]
      enforce [(1, st.x.var)] [(1, .one)] [(1, y)]
    else pure ())
    pure st) (⟨⟨two, some 1⟩, ⟨yn, some 0⟩⟩ : EqSt (ZMod q))
  pure ()

/-- The outer loop over the bits of the image, pospace_circuit.rs 117-283. -/
def yBlock {q : Nat} (n ySize : Nat) (yns : List (Option (ZMod q))) (i : Nat) (xlv : Option (ZMod q)) :
    Syn (ZMod q) Unit := do
  let bits ← lift (bitsOpt xlv ySize)
  let y ← newWit (some 0)
  let two ← newWit (some 1)
  let _ ← synUp bits.length (fun k st => do
    let b ← lift (at! bits k)
    let st ← bitStep b st
    (if k + 1 = bits.length then do
      let yy ← newWit xlv
      enforce [(1, st.x.var)] [(1, .one)] [(1, yy)]
    else pure ())
    (if k + 1 = n then do
      let ynv ← lift (at! yns i)
      ynBlock n ynv st.x.var
    else pure ())
    pure st) (⟨⟨two, some 1⟩, ⟨y, some 0⟩⟩ : EqSt (ZMod q))
  pure ()

/-- One input of `PospaceDemo`, pospace_circuit.rs 53-285. -/
def spaceInput {q : Nat} (n ySize : Nat) (keyv : Option (ZMod q)) (key : Var) (mv : Option (ZMod q))
    (xs : List (Option (ZMod q))) (dfConstants : List (ZMod q)) (yns : List (Option (ZMod q))) (i : Nat) :
    Syn (ZMod q) Unit := do
  let xv ← lift (at! xs i)
  let x ← newWit xv
  let xlv ← lift (mapOpt keyv (fun e => do
    let x ← unwrap! xv
    pure (e + x)))
  let xl ← newWit xlv
  enforce [(1, key), (1, x)] [(1, .one)] [(1, xl)]
  let xr ← newWit mv
  let _ ← synUp MIMC5_DF_ROUNDS (fun j st => do
    let st ← spaceDfRound dfConstants j st
    (if j + 1 = MIMC5_DF_ROUNDS then yBlock n ySize yns i st.xlv else pure ())
    pure st) ⟨xl, xlv, xr, mv⟩
  pure ()

/-- `PospaceDemo::generate_constraints`, pospace_circuit.rs 43-408, with `n` for `N` and `ySize`
for `Y_SIZE`.  The field `x_hash` of the circuit is never read. -/
def spaceCircuit {q : Nat} (n ySize : Nat) (keyv : Option (ZMod q)) (xs : List (Option (ZMod q)))
    (mv : Option (ZMod q)) (dfConstants : List (ZMod q)) (yns : List (Option (ZMod q)))
    (hashConstants : List (ZMod q)) : Syn (ZMod q) Unit := do
  if dfConstants.length ≠ MIMC5_DF_ROUNDS then lift (.error .assertion)
  else if hashConstants.length ≠ MIMC5_HASH_ROUNDS then lift (.error .assertion)
  else do
    let key ← newInput keyv
    let _ ← newInput mv
    synUp xs.length (fun i _ => spaceInput n ySize keyv key mv xs dfConstants yns i) ()
    let res ← newWit keyv
    let _ ← synUp xs.length (hashInput MIMC5_HASH_ROUNDS (mimc5HashRound hashConstants) xs) ⟨res, keyv⟩
    pure ()

/-- The circuit of `construct_circuit` (key generation), prover.rs 203-224, for `count` responses
(`RESPONSE_COUNT` in the code), run by the key generator without values. -/
def constructCircuit {q : Nat} (n ySize count : Nat) (dfConstants hashConstants : List (ZMod q)) :
    R (Unit × CS (ZMod q)) :=
  spaceCircuit n ySize none (List.replicate count none) none dfConstants (List.replicate count none) hashConstants
    (CS.init (ZMod q) true)

/-- The circuit of `response_2`, prover.rs 226-255, run by the prover.  Simplification:
`create_random_proof` is represented by the constraint system and assignment it works on. -/
def response2 {q : Nat} (n ySize : Nat) (key : ZMod q) (xResponse : List (ZMod q)) (m : ZMod q)
    (dfConstants : List (ZMod q)) (challenges idxResponse : List Nat) (hashConstants : List (ZMod q)) :
    R (Unit × CS (ZMod q)) := do
  let yns ← forUp idxResponse.length (fun i acc => do
    let idx ← at! idxResponse i
    let yn ← at! challenges idx
    pure (acc ++ [some (yn : ZMod q)])) []
  spaceCircuit n ySize (some key) (xResponse.map some) (some m) dfConstants yns hashConstants (CS.init (ZMod q) false)

/-! ### The sloth circuit -/

/-- `T`, sloth_circuit.rs 9. -/
def SLOTH_T : Nat := 3

/-- `fmod`, sloth_circuit.rs 19-21; `inverse()` of zero is `None`. -/
def fmod {K : Type} [Field K] [DecidableEq K] (x m : K) : R K :=
  if m = 0 then .error .unwrap else .ok (x - x * m⁻¹ * m)

/-- `SlothInvDemo::generate_constraints`, sloth_circuit.rs 24-50. -/
def slothCircuit {K : Type} [Field K] [DecidableEq K] (y p : Option K) : Syn K Unit := do
  let _ ← newInput y
  let _ ← synUp SLOTH_T (fun _ _ => do
    let xv ← lift (if y = none then .ok none
      else do
        let r ← unwrap! y
        let b ← fmod r (1 + 1)
        let p ← unwrap! p
        if b = 1 then do
          let v ← fmod (r + 1) p
          pure (some v)
        else do
          let v ← fmod (r - 1) p
          pure (some v))
    let _ ← newWit xv
    pure ()) ()
  pure ()

end PoS
