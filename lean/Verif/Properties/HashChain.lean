import Verif.Properties.SpaceRun

/-
C134: the hash over several inputs is a chain: a digest serves as the key of what follows.
-/

set_option linter.unusedSectionVars false

namespace PoS

variable {F : Type} [CommRing F]

/-- The digest of `xs` followed by `ys` is the digest of `ys` under the digest of `xs` as key, with the same panics. -/
theorem C134_append (xs ys : List F) (key : F) (cs : List F) :
    multiMimc5Hash (xs ++ ys) key cs = (multiMimc5Hash xs key cs >>= fun d => multiMimc5Hash ys d cs) ∧
    multiMimc7Hash (xs ++ ys) key cs = (multiMimc7Hash xs key cs >>= fun d => multiMimc7Hash ys d cs) := by
  unfold multiMimc5Hash multiMimc7Hash
  exact ⟨forEach_append .., forEach_append ..⟩

/-- Two prefixes with the same digest, under whatever keys, can be exchanged in front of anything. -/
theorem C134_exchange (xs xs' ys : List F) (key key' : F) (cs : List F) :
    (multiMimc5Hash xs key cs = multiMimc5Hash xs' key' cs →
      multiMimc5Hash (xs ++ ys) key cs = multiMimc5Hash (xs' ++ ys) key' cs) ∧
    (multiMimc7Hash xs key cs = multiMimc7Hash xs' key' cs →
      multiMimc7Hash (xs ++ ys) key cs = multiMimc7Hash (xs' ++ ys) key' cs) :=
  ⟨fun h => by rw [(C134_append xs ys key cs).1, (C134_append xs' ys key' cs).1, h],
   fun h => by rw [(C134_append xs ys key cs).2, (C134_append xs' ys key' cs).2, h]⟩

/-- The digest fixes neither the key nor the number of inputs: leaving out the first input gives the same digest under
another key, the same for all remaining inputs, none included. -/
theorem C134_not_binding (x : F) (key : F) (cs : List F) :
    (10 ≤ cs.length → ∃ key', ∀ ys, multiMimc5Hash (x :: ys) key cs = multiMimc5Hash ys key' cs) ∧
    (91 ≤ cs.length → ∃ key', ∀ ys, multiMimc7Hash (x :: ys) key cs = multiMimc7Hash ys key' cs) := by
  refine ⟨fun h => ?_, fun h => ?_⟩
  · refine ⟨key + x + (mimcSpec 5 cs key 9 x + key), fun ys => ?_⟩
    unfold multiMimc5Hash
    rw [forEach_cons, (C76_hash_value x key cs).1 h]
    rfl
  · refine ⟨key + x + (mimcSpec 7 cs key 90 x + key), fun ys => ?_⟩
    unfold multiMimc7Hash
    rw [forEach_cons, (C76_hash_value x key cs).2 h]
    rfl

example := (C134_append (F := ZMod 103) [4, 5] [6] 9 (List.replicate 10 7)).1
example := (C134_not_binding (F := ZMod 103) 4 9 (List.replicate 10 7)).1 (by simp)

/-- One input and none at all have the same digest under suitable keys, so they can be exchanged. -/
example : ∃ d, multiMimc5Hash (F := ZMod 103) [4] 9 (List.replicate 10 7) = .ok d ∧
    multiMimc5Hash (F := ZMod 103) [4, 5, 6] 9 (List.replicate 10 7) = multiMimc5Hash [5, 6] d (List.replicate 10 7) := by
  obtain ⟨d, hd⟩ := multiMimc5Hash_total (F := ZMod 103) [4] 9 (List.replicate 10 7) (by simp)
  exact ⟨d, hd, (C134_exchange (F := ZMod 103) [4] [] [5, 6] 9 d (List.replicate 10 7)).1 hd⟩

end PoS
