import Verif.Model.Mimc
import Verif.Proofs.Basic
import Verif.Proofs.Primes
import Mathlib.FieldTheory.Finite.Basic
import Mathlib.Tactic.Ring
import Mathlib.Tactic.NormNum

/-
C42, C43: the MiMC map and hash.
-/

namespace PoS

/-- A loop that reads `cs[i]` for `i` below `cs.length` is a fold. -/
theorem forUp_foldl {α σ : Type} (cs : List α) (f : α → σ → σ) (s : σ) :
    forUp cs.length (fun i s => do
      let c ← at! cs i
      pure (f c s)) s = .ok (cs.foldl (fun s c => f c s) s) := by
  have key : ∀ k ≤ cs.length, forUp k (fun i s => do
      let c ← at! cs i
      pure (f c s)) s = .ok ((cs.take k).foldl (fun s c => f c s) s) := by
    intro k
    induction k with
    | zero => intro _; simp
    | succ k ih =>
      intro hk
      rw [forUp_succ, ih (by omega), bind_ok, at!_of_lt (by omega), bind_ok, List.take_add_one,
        List.getElem?_eq_getElem (by omega), List.foldl_append]
      rfl
  have := key cs.length (Nat.le_refl _)
  rwa [List.take_length] at this

/-- The Feistel network with round function `(x + c)^e`. -/
def feistel {F : Type} [CommRing F] (e : Nat) (cs : List F) (s : F × F) : F × F :=
  cs.foldl (fun s c => ((s.1 + c) ^ e + s.2, s.1)) s

theorem feistel_bijective {F : Type} [CommRing F] (e : Nat) (cs : List F) :
    Function.Bijective (feistel e cs) := by
  induction cs with
  | nil => exact Function.bijective_id
  | cons c cs ih =>
    have hround : Function.Bijective (fun s : F × F => ((s.1 + c) ^ e + s.2, s.1)) := by
      constructor
      · rintro ⟨a, b⟩ ⟨a', b'⟩ h
        simp only [Prod.mk.injEq] at h
        obtain ⟨h1, rfl⟩ := h
        rw [add_left_cancel h1]
      · rintro ⟨a, b⟩
        exact ⟨(b, a - (b + c) ^ e), by simp⟩
    have e1 : feistel e (c :: cs) = feistel e cs ∘ (fun s : F × F => ((s.1 + c) ^ e + s.2, s.1)) := rfl
    rw [e1]
    exact ih.comp hround

theorem mimc5Df_eq {F : Type} [CommRing F] (xl xr : F) (cs : List F) (h : cs.length = 10) :
    mimc5Df xl xr cs = .ok (feistel 5 cs (xl, xr)).1 := by
  unfold mimc5Df
  rw [if_neg (by simp [h, MIMC5_DF_ROUNDS])]
  have := forUp_foldl cs (mimc5Round (F := F)) (xl, xr)
  rw [h] at this
  rw [show MIMC5_DF_ROUNDS = 10 from rfl, this, bind_ok]
  have e : (fun (s : F × F) c => mimc5Round c s) = fun s c => ((s.1 + c) ^ 5 + s.2, s.1) := by
    funext s c
    unfold mimc5Round
    simp only [Prod.mk.injEq, and_true]
    ring
  rw [e]
  rfl

theorem mimc3Df_eq {F : Type} [CommRing F] (xl xr : F) (cs : List F) (h : cs.length = 322) :
    mimc3Df xl xr cs = .ok (feistel 3 cs (xl, xr)).1 := by
  unfold mimc3Df
  rw [if_neg (by simp [h, MIMC3_DF_ROUNDS])]
  have := forUp_foldl cs (mimc3Round (F := F)) (xl, xr)
  rw [h] at this
  rw [show MIMC3_DF_ROUNDS = 322 from rfl, this, bind_ok]
  have e : (fun (s : F × F) c => mimc3Round c s) = fun s c => ((s.1 + c) ^ 3 + s.2, s.1) := by
    funext s c
    unfold mimc3Round
    simp only [Prod.mk.injEq, and_true]
    ring
  rw [e]
  rfl

/-! ### C42 -/

/-- Both maps are the first component of the (bijective) Feistel network with exponent 5
resp. 3 over the given constants, and panic on any other number of constants. -/
theorem C42_feistel {F : Type} [CommRing F] (cs : List F) :
    (cs.length = 10 → ∃ e : F × F ≃ F × F,
      (∀ s, e s = cs.foldl (fun s c => ((s.1 + c) ^ 5 + s.2, s.1)) s) ∧
      ∀ xl xr, mimc5Df xl xr cs = .ok (e (xl, xr)).1) ∧
    (cs.length = 322 → ∃ e : F × F ≃ F × F,
      (∀ s, e s = cs.foldl (fun s c => ((s.1 + c) ^ 3 + s.2, s.1)) s) ∧
      ∀ xl xr, mimc3Df xl xr cs = .ok (e (xl, xr)).1) ∧
    (cs.length ≠ 10 → ∀ xl xr, mimc5Df xl xr cs = .error .assertion) ∧
    (cs.length ≠ 322 → ∀ xl xr, mimc3Df xl xr cs = .error .assertion) := by
  refine ⟨fun h => ⟨Equiv.ofBijective _ (feistel_bijective 5 cs), fun s => rfl, fun xl xr => mimc5Df_eq xl xr cs h⟩,
    fun h => ⟨Equiv.ofBijective _ (feistel_bijective 3 cs), fun s => rfl, fun xl xr => mimc3Df_eq xl xr cs h⟩,
    fun h xl xr => if_pos h, fun h xl xr => if_pos h⟩

/-- No value is favoured: over a finite field every `y` is the image of exactly as many pairs as
there are field elements. -/
theorem C42_balanced {F : Type} [CommRing F] [Fintype F] [DecidableEq F] (cs : List F) (h : cs.length = 10) (y : F) :
    (Finset.univ.filter (fun s : F × F => mimc5Df s.1 s.2 cs = .ok y)).card = Fintype.card F := by
  obtain ⟨e, -, he⟩ := (C42_feistel cs).1 h
  rw [← Finset.card_univ]
  symm
  refine Finset.card_bij' (fun z _ => e.symm (y, z)) (fun s _ => (e s).2) ?_ ?_ ?_ ?_
  · intro z _
    simp only [Finset.mem_filter, Finset.mem_univ, true_and]
    rw [he]
    simp
  · intro s _; exact Finset.mem_univ _
  · intro z _; simp
  · intro s hs
    simp only [Finset.mem_filter, Finset.mem_univ, true_and, he] at hs
    have := Except.ok.inj hs
    rw [← this]
    simp

/-- The same for the map with exponent 3. -/
theorem C42_balanced_cubic {F : Type} [CommRing F] [Fintype F] [DecidableEq F] (cs : List F) (h : cs.length = 322)
    (y : F) : (Finset.univ.filter (fun s : F × F => mimc3Df s.1 s.2 cs = .ok y)).card = Fintype.card F := by
  obtain ⟨e, -, he⟩ := (C42_feistel cs).2.1 h
  rw [← Finset.card_univ]
  symm
  refine Finset.card_bij' (fun z _ => e.symm (y, z)) (fun s _ => (e s).2) ?_ ?_ ?_ ?_
  · intro z _
    simp only [Finset.mem_filter, Finset.mem_univ, true_and]
    rw [he]
    simp
  · intro s _; exact Finset.mem_univ _
  · intro z _; simp
  · intro s hs
    simp only [Finset.mem_filter, Finset.mem_univ, true_and, he] at hs
    have := Except.ok.inj hs
    rw [← this]
    simp

/-! ### C43 -/

theorem forUp_hash {F : Type} [CommRing F] (e : Nat) (key xIn : F) (cs : List F) (f : F → F)
    (hf : ∀ t, f t = t ^ e) (n : Nat) (hn : n + 1 ≤ cs.length) :
    forUp (n + 1) (fun i h => do
      let t ← (if i = 0 then pure (xIn + key)
        else do
          let c ← at! cs i
          pure (h + key + c) : R F)
      pure (f t)) 0 = .ok (((cs.drop 1).take n).foldl (fun h c => (h + key + c) ^ e) ((xIn + key) ^ e)) := by
  induction n with
  | zero =>
    rw [forUp_succ, forUp_zero]
    simp only [bind_ok, if_true]
    show Except.ok (f (xIn + key)) = _
    rw [hf]; simp
  | succ n ih =>
    rw [forUp_succ, ih (by omega), bind_ok, if_neg (by omega), at!_of_lt (by omega)]
    simp only [bind_ok]
    show Except.ok (f _) = _
    rw [List.take_add_one, List.getElem?_drop, Nat.add_comm 1 n, List.getElem?_eq_getElem (by omega), List.foldl_append,
      hf]
    rfl

/-- Closed form of `mimc5_hash` (the constant at position 0 is never used). -/
theorem mimc5Hash_eq {F : Type} [CommRing F] (xIn key : F) (cs : List F) (h : 10 ≤ cs.length) :
    mimc5Hash xIn key cs =
      .ok (((cs.drop 1).take 9).foldl (fun h c => (h + key + c) ^ 5) ((xIn + key) ^ 5) + key) := by
  unfold mimc5Hash
  rw [show MIMC5_HASH_ROUNDS = 9 + 1 from rfl,
    forUp_hash 5 key xIn cs (fun t => t * t * (t * t) * t) (fun t => by ring) 9 h, bind_ok]
  rfl

/-- Closed form of `mimc7_hash`. -/
theorem mimc7Hash_eq {F : Type} [CommRing F] (xIn key : F) (cs : List F) (h : 91 ≤ cs.length) :
    mimc7Hash xIn key cs =
      .ok (((cs.drop 1).take 90).foldl (fun h c => (h + key + c) ^ 7) ((xIn + key) ^ 7) + key) := by
  unfold mimc7Hash
  rw [show MIMC7_HASH_ROUNDS = 90 + 1 from rfl,
    forUp_hash 7 key xIn cs (fun t => t * t * (t * t) * (t * t) * t) (fun t => by ring) 90 h, bind_ok]
  rfl

theorem pow_bijective {p e d k : Nat} [hp : Fact p.Prime] (h : e * d = k * (p - 1) + 1) :
    Function.Bijective (fun x : ZMod p => x ^ e) := by
  apply Finite.injective_iff_bijective.mp
  have key : ∀ x : ZMod p, (x ^ e) ^ d = x := by
    intro x
    rw [← pow_mul, h, pow_succ, mul_comm k, pow_mul]
    by_cases hx : x = 0
    · rw [hx, mul_zero]
    · rw [ZMod.pow_card_sub_one_eq_one hx, one_pow, one_mul]
  intro x y hxy
  have := congrArg (· ^ d) hxy
  simp only [key] at this
  exact this

theorem foldl_bijective {F : Type} [CommRing F] (e : Nat) (hb : Function.Bijective (fun x : F => x ^ e)) (key : F)
    (cs : List F) : Function.Bijective (fun x : F =>
      cs.foldl (fun h c => (h + key + c) ^ e) ((x + key) ^ e) + key) := by
  have hadd : ∀ a : F, Function.Bijective (fun x : F => x + a) := fun a => (Equiv.addRight a).bijective
  have hfold : Function.Bijective (fun x : F => cs.foldl (fun h c => (h + key + c) ^ e) x) := by
    induction cs with
    | nil => exact Function.bijective_id
    | cons c cs ih =>
      have : Function.Bijective (fun x : F => (x + key + c) ^ e) := hb.comp ((hadd c).comp (hadd key))
      exact ih.comp this
  exact (hadd key).comp (hfold.comp (hb.comp (hadd key)))

/-- The BLS12-381 scalar field order. -/
def blsR : Nat := 0x73eda753299d7d483339d80809a1d80553bda402fffe5bfeffffffff00000001

instance : Fact blsR.Prime := ⟨prime_bls_r⟩

/-- For every key and all constants both hashes are bijections of the scalar field in their
input. -/
theorem C43_hash_bijective (key : ZMod blsR) (cs : List (ZMod blsR)) :
    (10 ≤ cs.length → ∃ f : ZMod blsR → ZMod blsR, Function.Bijective f ∧ ∀ x, mimc5Hash x key cs = .ok (f x)) ∧
    (91 ≤ cs.length → ∃ f : ZMod blsR → ZMod blsR, Function.Bijective f ∧ ∀ x, mimc7Hash x key cs = .ok (f x)) := by
  have h5 : Function.Bijective (fun x : ZMod blsR => x ^ 5) :=
    pow_bijective (d := 20974350070050476191779096203274386335076221000211055129041463479975432473805) (k := 2)
      (by unfold blsR; norm_num)
  have h7 : Function.Bijective (fun x : ZMod blsR => x ^ 7) :=
    pow_bijective (d := 22472517932196938776906174503508271073295951071654701923972996585687963364791) (k := 3)
      (by unfold blsR; norm_num)
  exact ⟨fun h => ⟨_, foldl_bijective 5 h5 key _, fun x => mimc5Hash_eq x key cs h⟩,
    fun h => ⟨_, foldl_bijective 7 h7 key _, fun x => mimc7Hash_eq x key cs h⟩⟩

/-- With fewer constants than rounds the hashes panic (index out of bounds). -/
theorem C43_few_constants {F : Type} [CommRing F] (x key : F) (cs : List F) :
    (cs.length < 10 → mimc5Hash x key cs = .error .index) ∧ (cs.length < 91 → mimc7Hash x key cs = .error .index) := by
  have gen : ∀ (N : Nat) (f : F → F), 2 ≤ N → cs.length < N →
      forUp N (fun i h => do
        let t ← (if i = 0 then pure (x + key)
          else do
            let c ← at! cs i
            pure (h + key + c) : R F)
        pure (f t)) 0 = .error .index := by
    intro N f hN hlt
    set body : Nat → F → R F := fun i h => do
        let t ← (if i = 0 then pure (x + key)
          else do
            let c ← at! cs i
            pure (h + key + c) : R F)
        pure (f t) with hbody
    have hpre : ∀ k, k ≤ max 1 cs.length → ∃ t, forUp k body 0 = .ok t := by
      intro k
      induction k with
      | zero => intro _; exact ⟨0, rfl⟩
      | succ k ih =>
        intro hk
        obtain ⟨t, ht⟩ := ih (by omega)
        rw [forUp_succ, ht, bind_ok, hbody]
        by_cases h0 : k = 0
        · subst h0
          exact ⟨_, rfl⟩
        · simp only [h0, if_false]
          rw [at!_of_lt (by omega)]
          exact ⟨_, rfl⟩
    obtain ⟨t, ht⟩ := hpre (max 1 cs.length) (Nat.le_refl _)
    refine forUp_error_of (by omega) ht ?_
    rw [hbody]
    simp only [show max 1 cs.length ≠ 0 by omega, if_false]
    rw [at!_ge (by omega)]
    rfl
  constructor
  · intro h
    unfold mimc5Hash
    rw [show MIMC5_HASH_ROUNDS = 10 from rfl, gen 10 (fun t => t * t * (t * t) * t) (by norm_num) h]
    rfl
  · intro h
    unfold mimc7Hash
    rw [show MIMC7_HASH_ROUNDS = 91 from rfl, gen 91 (fun t => t * t * (t * t) * (t * t) * t) (by norm_num) h]
    rfl

/-- The hash is not the identity and does depend on the key. -/
example : mimc5Hash (3 : ZMod 103) 4 [0, 1, 2, 3, 4, 5, 6, 7, 8, 9] ≠
    mimc5Hash (3 : ZMod 103) 5 [0, 1, 2, 3, 4, 5, 6, 7, 8, 9] ∧
    mimc5Hash (3 : ZMod 103) 4 [0, 1, 2, 3, 4, 5, 6, 7, 8, 9] ≠ .ok 3 := by decide +kernel

/-- Over a field where 5 divides the group order the hash is not injective, so the condition on
the field is needed. -/
example : mimc5Hash (1 : ZMod 11) 0 [0, 1, 2, 3, 4, 5, 6, 7, 8, 9] =
    mimc5Hash (3 : ZMod 11) 0 [0, 1, 2, 3, 4, 5, 6, 7, 8, 9] := by decide +kernel

end PoS
