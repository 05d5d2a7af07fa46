import Verif.Model.Circuits
import Verif.Proofs.Basic
import Mathlib.Tactic.IntervalCases

/-
C133: how many round constants the MiMC functions and circuits accept, and how many bits the two circuits over bits.
-/

set_option linter.unusedSectionVars false

namespace PoS

variable {F : Type} [CommRing F]

/-- The circuits panic at their assertion unless there are exactly as many constants as rounds, in key generation and in
proving and whatever the inputs are. -/
theorem C133_circuits {q : Nat} (cs : List F) (s : CS F) :
    (cs.length ≠ 322 → ∀ xl xr, mimc3DfCircuit xl xr cs s = .error .assertion) ∧
    (cs.length ≠ 10 → ∀ xl xr, mimc5DfCircuit xl xr cs s = .error .assertion) ∧
    (cs.length ≠ 10 → ∀ xs key, mimc5HashCircuit xs key cs s = .error .assertion) ∧
    (cs.length ≠ 91 → ∀ xs key, mimc7HashCircuit xs key cs s = .error .assertion) ∧
    (∀ (dcs hcs : List (ZMod q)) (t : CS (ZMod q)), dcs.length ≠ 10 ∨ hcs.length ≠ 10 →
      ∀ n ySize key xs m yns, spaceCircuit n ySize key xs m dcs yns hcs t = .error .assertion) := by
  refine ⟨fun h _ _ => ?_, fun h _ _ => ?_, fun h _ _ => ?_, fun h _ _ => ?_, fun dcs hcs t h n ySize key xs m yns => ?_⟩
  · unfold mimc3DfCircuit; rw [if_pos (show cs.length ≠ MIMC3_DF_ROUNDS from h)]; rfl
  · unfold mimc5DfCircuit; rw [if_pos (show cs.length ≠ MIMC5_DF_ROUNDS from h)]; rfl
  · unfold mimc5HashCircuit; rw [if_pos (show cs.length ≠ MIMC5_HASH_ROUNDS from h)]; rfl
  · unfold mimc7HashCircuit; rw [if_pos (show cs.length ≠ MIMC7_HASH_ROUNDS from h)]; rfl
  · unfold spaceCircuit
    by_cases h1 : dcs.length ≠ MIMC5_DF_ROUNDS
    · rw [if_pos h1]; rfl
    · rw [if_neg h1, if_pos (show hcs.length ≠ MIMC5_HASH_ROUNDS from h.resolve_left h1)]; rfl

/-- The circuits over bits panic at their assertion unless there are 20 bits (power) or 256 bits (equality). -/
theorem C133_bits (bits : List (Option Nat)) (s : CS F) :
    (bits.length ≠ 20 → ∀ g, powCircuit g bits s = .error .assertion) ∧
    (bits.length ≠ 256 → ∀ x1 x2 d, equalCircuit x1 x2 bits d s = .error .assertion) := by
  refine ⟨fun h _ => ?_, fun h _ _ _ => ?_⟩
  · unfold powCircuit; rw [if_pos (show bits.length ≠ POW_INPUT_SIZE from h)]; rfl
  · unfold equalCircuit; rw [if_pos (show bits.length ≠ EQUAL_INPUT_SIZE from h)]; rfl

example := (C133_bits (F := ZMod 103) (List.replicate 21 (some 1)) (CS.init (ZMod 103) true)).1 (by simp)
example := (C133_bits (F := ZMod 103) (List.replicate 20 (some 1)) (CS.init (ZMod 103) false)).2 (by simp)

/-- The Feistel functions return a value exactly with as many constants as rounds, and panic at their assertion
otherwise. -/
theorem C133_feistel (xl xr : F) (cs : List F) :
    (cs.length = 322 → ∃ y, mimc3Df xl xr cs = .ok y) ∧ (cs.length ≠ 322 → mimc3Df xl xr cs = .error .assertion) ∧
    (cs.length = 10 → ∃ y, mimc5Df xl xr cs = .ok y) ∧ (cs.length ≠ 10 → mimc5Df xl xr cs = .error .assertion) := by
  refine ⟨fun h => ?_, fun h => ?_, fun h => ?_, fun h => ?_⟩
  · unfold mimc3Df
    rw [if_neg (by rw [h]; exact fun h => h rfl)]
    obtain ⟨t, ht, -⟩ := forUp_total (n := MIMC3_DF_ROUNDS) (f := fun i s => do
      let c ← at! cs i
      pure (mimc3Round c s)) (s := (xl, xr)) (fun _ _ => True) trivial (fun i hi s _ => by
        rw [at!_of_lt (by rw [h]; exact hi), bind_ok]
        exact ⟨_, rfl, trivial⟩)
    rw [ht]
    exact ⟨_, rfl⟩
  · unfold mimc3Df; rw [if_pos (show cs.length ≠ MIMC3_DF_ROUNDS from h)]
  · unfold mimc5Df
    rw [if_neg (by rw [h]; exact fun h => h rfl)]
    obtain ⟨t, ht, -⟩ := forUp_total (n := MIMC5_DF_ROUNDS) (f := fun i s => do
      let c ← at! cs i
      pure (mimc5Round c s)) (s := (xl, xr)) (fun _ _ => True) trivial (fun i hi s _ => by
        rw [at!_of_lt (by rw [h]; exact hi), bind_ok]
        exact ⟨_, rfl, trivial⟩)
    rw [ht]
    exact ⟨_, rfl⟩
  · unfold mimc5Df; rw [if_pos (show cs.length ≠ MIMC5_DF_ROUNDS from h)]

/-- The loop of the hash functions: round `i` reads constant `i`, except the first. -/
def hashLoop (n : Nat) (g : F → F) (x k : F) (cs : List F) : R F :=
  forUp n (fun i h => do
    let t ← (if i = 0 then pure (x + k)
      else do
        let c ← at! cs i
        pure (h + k + c) : R F)
    pure (g t)) 0

/-- It goes through with at least `n` constants, panics with fewer, and depends on the constants 1 to `n - 1` only. -/
theorem hashLoop_constants {n : Nat} (hn : 2 ≤ n) (g : F → F) (x k : F) (cs : List F) :
    (n ≤ cs.length → ∃ y, hashLoop n g x k cs = .ok y) ∧ (cs.length < n → hashLoop n g x k cs = .error .index) ∧
    ∀ cs', (∀ i, 0 < i → i < n → cs'[i]? = cs[i]?) → hashLoop n g x k cs' = hashLoop n g x k cs := by
  have step : ∀ m, m ≤ cs.length ∨ m ≤ 1 → ∃ t, forUp m (fun i h => do
      let t ← (if i = 0 then pure (x + k)
        else do
          let c ← at! cs i
          pure (h + k + c) : R F)
      pure (g t)) 0 = .ok t := by
    intro m hm
    obtain ⟨t, ht, -⟩ := forUp_total (n := m) (f := fun i h => do
      let t ← (if i = 0 then pure (x + k)
        else do
          let c ← at! cs i
          pure (h + k + c) : R F)
      pure (g t)) (s := 0) (fun _ _ => True) trivial (fun i hi s _ => by
        by_cases h0 : i = 0
        · rw [if_pos h0]; exact ⟨_, rfl, trivial⟩
        · rw [if_neg h0, at!_of_lt (by omega)]; exact ⟨_, rfl, trivial⟩)
    exact ⟨t, ht⟩
  refine ⟨fun h => step n (Or.inl h), fun h => ?_, fun cs' hcs => ?_⟩
  · obtain ⟨t, ht⟩ := step (max 1 cs.length) (by omega)
    refine forUp_error_of (k := max 1 cs.length) (by omega) ht ?_
    have : at! cs (max 1 cs.length) = .error .index := by
      unfold at!
      rw [List.getElem?_eq_none (by omega)]
    rw [if_neg (by omega), this]
    rfl
  · refine forUp_congr (fun i hi s => ?_)
    by_cases h0 : i = 0
    · rw [if_pos h0, if_pos h0]
    · rw [if_neg h0, if_neg h0]
      have : at! cs' i = at! cs i := by unfold at!; rw [hcs i (by omega) hi]
      rw [this]

/-- The hash functions have no assertion.  They return a value exactly with at least as many constants as rounds, and panic
with an index out of range otherwise; the first constant and those behind the last round are never used. -/
theorem C133_hash (x k : F) (cs : List F) :
    (10 ≤ cs.length → ∃ y, mimc5Hash x k cs = .ok y) ∧ (cs.length < 10 → mimc5Hash x k cs = .error .index) ∧
    (∀ cs', (∀ i, 0 < i → i < 10 → cs'[i]? = cs[i]?) → mimc5Hash x k cs' = mimc5Hash x k cs) ∧
    (91 ≤ cs.length → ∃ y, mimc7Hash x k cs = .ok y) ∧ (cs.length < 91 → mimc7Hash x k cs = .error .index) ∧
    (∀ cs', (∀ i, 0 < i → i < 91 → cs'[i]? = cs[i]?) → mimc7Hash x k cs' = mimc7Hash x k cs) := by
  have e5 : ∀ cs, mimc5Hash x k cs =
      hashLoop MIMC5_HASH_ROUNDS (fun t => t * t * (t * t) * t) x k cs >>= fun h => pure (h + k) := fun _ => rfl
  have e7 : ∀ cs, mimc7Hash x k cs =
      hashLoop MIMC7_HASH_ROUNDS (fun t => t * t * (t * t) * (t * t) * t) x k cs >>= fun h => pure (h + k) := fun _ => rfl
  obtain ⟨a1, a2, a3⟩ := hashLoop_constants (n := MIMC5_HASH_ROUNDS) (by decide) (fun t => t * t * (t * t) * t) x k cs
  obtain ⟨b1, b2, b3⟩ := hashLoop_constants (n := MIMC7_HASH_ROUNDS) (by decide)
    (fun t => t * t * (t * t) * (t * t) * t) x k cs
  refine ⟨fun h => ?_, fun h => ?_, fun cs' h => ?_, fun h => ?_, fun h => ?_, fun cs' h => ?_⟩
  · obtain ⟨y, hy⟩ := a1 h
    rw [e5, hy]
    exact ⟨_, rfl⟩
  · rw [e5, a2 h]
    rfl
  · rw [e5, e5, a3 cs' h]
  · obtain ⟨y, hy⟩ := b1 h
    rw [e7, hy]
    exact ⟨_, rfl⟩
  · rw [e7, b2 h]
    rfl
  · rw [e7, e7, b3 cs' h]

/-- The functions over several inputs: without inputs the key is returned whatever the constants are, otherwise they need
as many constants as the functions over one input. -/
theorem C133_multi (x : F) (xs : List F) (k : F) (cs : List F) :
    multiMimc5Hash [] k cs = .ok k ∧ multiMimc7Hash [] k cs = .ok k ∧
    (10 ≤ cs.length → ∃ y, multiMimc5Hash (x :: xs) k cs = .ok y) ∧
    (cs.length < 10 → multiMimc5Hash (x :: xs) k cs = .error .index) ∧
    (91 ≤ cs.length → ∃ y, multiMimc7Hash (x :: xs) k cs = .ok y) ∧
    (cs.length < 91 → multiMimc7Hash (x :: xs) k cs = .error .index) := by
  refine ⟨rfl, rfl, fun h => ?_, fun h => ?_, fun h => ?_, fun h => ?_⟩
  · generalize x :: xs = l
    induction l generalizing k with
    | nil => exact ⟨k, rfl⟩
    | cons x l ih =>
      obtain ⟨y, hy⟩ := (C133_hash x k cs).1 h
      obtain ⟨z, hz⟩ := ih (k + x + y)
      refine ⟨z, ?_⟩
      rw [← hz]
      unfold multiMimc5Hash
      rw [forEach, hy]
      rfl
  · unfold multiMimc5Hash
    rw [forEach, (C133_hash x k cs).2.1 h]
    rfl
  · generalize x :: xs = l
    induction l generalizing k with
    | nil => exact ⟨k, rfl⟩
    | cons x l ih =>
      obtain ⟨y, hy⟩ := (C133_hash x k cs).2.2.2.1 h
      obtain ⟨z, hz⟩ := ih (k + x + y)
      refine ⟨z, ?_⟩
      rw [← hz]
      unfold multiMimc7Hash
      rw [forEach, hy]
      rfl
  · unfold multiMimc7Hash
    rw [forEach, (C133_hash x k cs).2.2.2.2.1 h]
    rfl

example := (C133_multi (F := ZMod 103) 4 [5, 6] 9 (List.replicate 11 7)).2.2.1 (by simp)
example := (C133_multi (F := ZMod 103) 4 [5, 6] 9 (List.replicate 9 7)).2.2.2.1 (by simp)

/-- With eleven constants the hash has a value, its circuit panics. -/
example : (mimc5Hash (F := ZMod 103) 4 9 (List.replicate 11 7)).toOption.isSome = true ∧
    (mimc5HashCircuit (F := ZMod 103) [some 4] (some 9) (List.replicate 11 7) (CS.init (ZMod 103) false)).toOption.isSome = false ∧
    (mimc5Hash (F := ZMod 103) 4 9 (List.replicate 9 7)).toOption.isSome = false := by decide +kernel
example := (C133_feistel (F := ZMod 103) 4 9 (List.replicate 10 7)).2.2.1 (by simp)
example := (C133_circuits (F := ZMod 103) (q := 103) (List.replicate 9 7) (CS.init (ZMod 103) true)).2.1 (by simp)
example := (C133_hash (F := ZMod 103) 4 9 (List.replicate 10 7)).2.2.1 (1 :: List.replicate 11 7) (by
  intro i h1 h2
  interval_cases i <;> rfl)

end PoS
