import Verif.Basic
import Mathlib.Algebra.Ring.Defs

/-
The part of the library `ark-relations` 0.3 used by the circuits of
/repo/proof_of_space/src/circuit: variables, linear combinations and the constraint system.
Modelled from memory of the library, see DESIGN.md.
-/

namespace PoS

/-- `Variable`.  Simplification: instance variables are numbered from 0 without the constant
one, which is the separate variable `one`. -/
inductive Var where
  | one
  | inst (i : Nat)
  | wit (i : Nat)
  deriving DecidableEq, Repr

/-- `LinearCombination`: coefficients and variables (`lc!() + a - b + (c, v)`).
Simplification: the list is kept in the order written, unsorted and unmerged. -/
abbrev LC (F : Type) := List (F × Var)

/-- `ConstraintSystem`: mode, recorded instance and witness values, numbers of variables, and
the constraints `a * b = c`. -/
structure CS (F : Type) where
  setup : Bool
  inst : List F
  wit : List F
  nInst : Nat
  nWit : Nat
  cons : List (LC F × LC F × LC F)

/-- The empty constraint system in setup resp. proving mode. -/
def CS.init (F : Type) (setup : Bool) : CS F := ⟨setup, [], [], 0, 0, []⟩

/-- A synthesis step: it may panic, and it changes the constraint system.  The library error
`AssignmentMissing` is the panic of the `unwrap` at the caller of the proof system. -/
abbrev Syn (F : Type) (α : Type) := StateT (CS F) (Except Panic) α

section
variable {F : Type}

/-- A computation that does not touch the constraint system. -/
def lift {α : Type} (x : R α) : Syn F α := fun s => x >>= fun a => .ok (a, s)

/-- `Option::unwrap`. -/
def unwrap! {α : Type} (o : Option α) : R α := o.elim (.error .unwrap) .ok

/-- `Option::map` with a closure that may panic. -/
def mapOpt {α β : Type} (o : Option α) (f : α → R β) : R (Option β) :=
  o.elim (.ok none) (fun e => f e >>= fun b => .ok (some b))

/-- `cs.new_input_variable(|| value.ok_or(AssignmentMissing))?`: in setup mode the closure is
not called. -/
def newInput (value : Option F) : Syn F Var := fun s =>
  let s' := { s with nInst := s.nInst + 1 }
  if s.setup = true then .ok (.inst s.nInst, s')
  else unwrap! value >>= fun v => .ok (.inst s.nInst, { s' with inst := s.inst ++ [v] })

/-- `cs.new_witness_variable(|| value.ok_or(AssignmentMissing))?`. -/
def newWit (value : Option F) : Syn F Var := fun s =>
  let s' := { s with nWit := s.nWit + 1 }
  if s.setup = true then .ok (.wit s.nWit, s')
  else unwrap! value >>= fun v => .ok (.wit s.nWit, { s' with wit := s.wit ++ [v] })

/-- `cs.enforce_constraint(a, b, c)?`. -/
def enforce (a b c : LC F) : Syn F Unit := fun s => .ok ((), { s with cons := s.cons ++ [(a, b, c)] })

/-- `for i in 0..n` around synthesis steps. -/
def synUp {σ : Type} : Nat → (Nat → σ → Syn F σ) → σ → Syn F σ
  | 0, _, t => pure t
  | n + 1, f, t => do
    let t ← synUp n f t
    f n t

/-- Value of a variable under an assignment (instance values, witness values). -/
def valA [CommRing F] (a : List F × List F) : Var → F
  | .one => 1
  | .inst i => a.1[i]?.getD 0
  | .wit i => a.2[i]?.getD 0

/-- Value of a linear combination. -/
def evalLC [CommRing F] (a : List F × List F) : LC F → F
  | [] => 0
  | t :: ts => t.1 * valA a t.2 + evalLC a ts

/-- The assignment satisfies the constraints: what a Groth16 proof for these public inputs
(`a.1`) attests. -/
def Satisfies [CommRing F] (cons : List (LC F × LC F × LC F)) (a : List F × List F) : Prop :=
  ∀ c ∈ cons, evalLC a c.1 * evalLC a c.2.1 = evalLC a c.2.2

end

end PoS
