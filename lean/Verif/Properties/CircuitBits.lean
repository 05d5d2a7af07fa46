import Verif.Properties.CircuitShape

/-
C50, C60: bits that are neither 0 nor 1 make proving fail.
-/

set_option linter.unusedSectionVars false

namespace PoS

variable {F : Type} [CommRing F]

/-- A synthesis step does not switch between key generation and proving. -/
def KeepsMode {α : Type} (x : Syn F α) : Prop := ∀ s r s', x s = .ok (r, s') → s'.setup = s.setup

theorem KeepsMode.bind {α β : Type} {x : Syn F α} {f : α → Syn F β} (hx : KeepsMode x) (hf : ∀ r, KeepsMode (f r)) :
    KeepsMode (x >>= f) := by
  intro s r s' h
  obtain ⟨r1, s1, h1, h2⟩ := run_bind_inv h
  exact (hf r1 s1 r s' h2).trans (hx s r1 s1 h1)

theorem keeps_pure {α : Type} (r : α) : KeepsMode (pure r : Syn F α) := by
  intro s r' s' h
  cases h
  rfl

theorem keeps_lift {α : Type} (x : R α) : KeepsMode (lift x : Syn F α) := by
  intro s r s' h
  rw [(lift_inv h).2]

theorem keeps_enforce (a b c : LC F) : KeepsMode (enforce a b c) := by
  intro s r s' h
  cases h
  rfl

theorem keeps_newWit (o : Option F) : KeepsMode (newWit o) := by
  rintro ⟨setup, i, w, ni, nw, c⟩ r s' h
  cases setup <;> cases o <;> cases h <;> rfl

theorem keeps_newInput (o : Option F) : KeepsMode (newInput o) := by
  rintro ⟨setup, i, w, ni, nw, c⟩ r s' h
  cases setup <;> cases o <;> cases h <;> rfl

theorem keeps_ite {α : Type} (p : Prop) [Decidable p] {x y : Syn F α} (hx : KeepsMode x) (hy : KeepsMode y) :
    KeepsMode (if p then x else y) := by
  split
  · exact hx
  · exact hy

theorem keeps_synUp {σ : Type} {f : Nat → σ → Syn F σ} (hf : ∀ i t, KeepsMode (f i t)) (n : Nat) (t : σ) :
    KeepsMode (synUp n f t) := by
  induction n with
  | zero => exact keeps_pure t
  | succ n ih => exact ih.bind (hf n)

/-- Every step of a loop that went through went through. -/
theorem synUp_steps {σ : Type} {f : Nat → σ → Syn F σ} (hf : ∀ i t, KeepsMode (f i t)) (n : Nat) (t r : σ) (s s' : CS F)
    (h : synUp n f t s = .ok (r, s')) (i : Nat) (hi : i < n) :
    ∃ t1 s1 t2 s2, f i t1 s1 = .ok (t2, s2) ∧ s1.setup = s.setup := by
  induction n generalizing r s' with
  | zero => omega
  | succ n ih =>
    obtain ⟨t1, s1, h1, h2⟩ := run_bind_inv h
    by_cases hin : i = n
    · subst hin
      exact ⟨t1, s1, r, s', h2, keeps_synUp hf _ t s t1 s1 h1⟩
    · exact ih t1 s1 h1 (by omega)

theorem newWit_value {o : Option F} {s s' : CS F} {r : Var} (h : newWit o s = .ok (r, s')) (hs : s.setup = false) :
    o ≠ none := by
  rintro rfl
  obtain ⟨setup, i, w, ni, nw, c⟩ := s
  cases hs
  cases h

theorem bitVal_value {b : Option Nat} (h : (bitVal b : Option F) ≠ none) : b = some 0 ∨ b = some 1 := by
  unfold bitVal at h
  by_cases h1 : b = some 1
  · exact Or.inr h1
  · rw [if_neg h1] at h
    by_cases h0 : b = some 0
    · exact Or.inl h0
    · rw [if_neg h0] at h
      exact absurd rfl h

theorem keeps_powRound (bits : List (Option Nat)) (i : Nat) (st : PowSt F) : KeepsMode (powRound bits i st) := by
  unfold powRound
  repeat' first
    | exact keeps_pure _ | exact keeps_lift _ | exact keeps_enforce _ _ _ | exact keeps_newWit _ | exact keeps_newInput _
    | refine keeps_ite _ ?_ ?_ | refine KeepsMode.bind ?_ (fun _ => ?_)

theorem keeps_equalRound (x1 x2 : Option F) (bits : List (Option Nat)) (d i : Nat) (st : EqSt F) :
    KeepsMode (equalRound x1 x2 bits d i st) := by
  unfold equalRound
  repeat' first
    | exact keeps_pure _ | exact keeps_lift _ | exact keeps_enforce _ _ _ | exact keeps_newWit _ | exact keeps_newInput _
    | refine keeps_ite _ ?_ ?_ | refine KeepsMode.bind ?_ (fun _ => ?_)

/-- Proving with the power circuit goes through only with twenty bits, each of which is 0 or 1: a missing bit and any other
number are refused. -/
theorem C50_bad_bits (g : Option F) (bits : List (Option Nat)) (s : CS F)
    (h : powCircuit g bits (CS.init F false) = .ok ((), s)) :
    bits.length = 20 ∧ ∀ b ∈ bits, b = some 0 ∨ b = some 1 := by
  unfold powCircuit at h
  by_cases hl : bits.length = POW_INPUT_SIZE
  swap
  · rw [if_pos hl] at h
    cases h
  rw [if_neg (by simp [hl])] at h
  obtain ⟨_, s1, h1, h⟩ := run_bind_inv h
  obtain ⟨_, s2, h2, h⟩ := run_bind_inv h
  obtain ⟨_, s3, h3, -⟩ := run_bind_inv h
  have hs : s2.setup = false := (keeps_newWit _ _ _ _ h2).trans (keeps_newWit _ _ _ _ h1)
  refine ⟨hl, fun b hb => ?_⟩
  obtain ⟨i, hi, rfl⟩ := List.mem_iff_getElem.mp hb
  obtain ⟨t1, s4, t2, s5, h4, h5⟩ := synUp_steps (keeps_powRound bits) _ _ _ _ _ h3 i (by omega)
  unfold powRound at h4
  obtain ⟨b', s6, h6, h4⟩ := run_bind_inv h4
  obtain ⟨h7, rfl⟩ := lift_inv h6
  rw [at!_of_lt hi] at h7
  cases h7
  obtain ⟨_, _, h8, -⟩ := run_bind_inv h4
  exact bitVal_value (newWit_value h8 (h5.trans hs))

/-- Proving with the equality circuit goes through only with 256 bits, each of which is 0 or 1. -/
theorem C60_bad_bits (x1 x2 : Option F) (bits : List (Option Nat)) (d : Nat) (s : CS F)
    (h : equalCircuit x1 x2 bits d (CS.init F false) = .ok ((), s)) :
    bits.length = 256 ∧ ∀ b ∈ bits, b = some 0 ∨ b = some 1 := by
  unfold equalCircuit at h
  by_cases hl : bits.length = EQUAL_INPUT_SIZE
  swap
  · rw [if_pos hl] at h
    cases h
  rw [if_neg (by simp [hl])] at h
  obtain ⟨_, s1, h1, h⟩ := run_bind_inv h
  obtain ⟨_, s2, h2, h⟩ := run_bind_inv h
  obtain ⟨_, s3, h3, -⟩ := run_bind_inv h
  have hs : s2.setup = false := (keeps_newWit _ _ _ _ h2).trans (keeps_newWit _ _ _ _ h1)
  refine ⟨hl, fun b hb => ?_⟩
  obtain ⟨i, hi, rfl⟩ := List.mem_iff_getElem.mp hb
  obtain ⟨t1, s4, t2, s5, h4, h5⟩ := synUp_steps (keeps_equalRound x1 x2 bits d) _ _ _ _ _ h3 i (by omega)
  unfold equalRound at h4
  obtain ⟨b', s6, h6, h4⟩ := run_bind_inv h4
  obtain ⟨h7, rfl⟩ := lift_inv h6
  rw [at!_of_lt hi] at h7
  cases h7
  obtain ⟨_, _, h8, -⟩ := run_bind_inv h4
  exact bitVal_value (newWit_value h8 (h5.trans hs))

/-- Proving with honest bits goes through (the hypothesis can be met), and with a bit 2 it does not. -/
example : (powCircuit (F := ZMod 103) (some 5) ((List.range 20).map (fun i => some (6 / 2 ^ i % 2)))
      (CS.init (ZMod 103) false)).toOption.isSome = true ∧
    (powCircuit (F := ZMod 103) (some 5) ((List.range 20).map (fun i => some (if i = 3 then 2 else 0)))
      (CS.init (ZMod 103) false)).toOption.isSome = false := by decide +kernel
example : (equalCircuit (F := ZMod 103) (some 8) (some 1000) ((List.range 256).map (fun i => some (1000 / 2 ^ i % 2))) 4
      (CS.init (ZMod 103) false)).toOption.isSome = true ∧
    (equalCircuit (F := ZMod 103) (some 8) (some 1000) ((List.range 256).map (fun i => some (if i = 9 then 2 else 0))) 4
      (CS.init (ZMod 103) false)).toOption.isSome = false := by decide +kernel

end PoS
