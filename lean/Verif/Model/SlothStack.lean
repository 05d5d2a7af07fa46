import Verif.Model.Sloth

/-
The recursion of `legendre` (/repo/proof_of_storage/src/vde/rug_sloth.rs 13-55, sloth.rs 12-54) on a
call stack of limited depth.  The recursive call is `s * legendre(p1, &x)`, not a tail call, so every
level keeps its frame.
-/

namespace PoS

/-- `legendre`, rug_sloth.rs 13-55, with room for `depth` nested calls; `none`: the stack overflows. -/
def Rug.legendreStack : Nat → Int → Int → Option Int
  | 0, _, _ => none
  | depth + 1, x, p =>
    if x = 0 then some 0
    else if x = 1 then some 1
    else
      let xe := stripTwos x.natAbs x 0
      let x := xe.1
      let e := xe.2
      let s : Int :=
        if e % 2 = 0 then 1
        else
          let s : Int := if p.tmod 8 = 1 ∨ p.tmod 8 = 7 then 1 else 1
          if p.tmod 8 = 3 ∨ p.tmod 8 = 5 then -1 else s
      let s := if p.tmod 4 = 3 ∧ x.tmod 4 = 3 then -s else s
      let p1 := p.tmod x
      if x = 1 then some s
      else (Rug.legendreStack depth p1 x).map (fun r => s * r)

/-- `legendre`, sloth.rs 12-54, with room for `depth` nested calls; `none`: the stack overflows. -/
def Num.legendreStack : Nat → Int → Int → Option Int
  | 0, _, _ => none
  | depth + 1, x, p =>
    if x = 0 then some 0
    else if x = 1 then some 1
    else
      let xe := stripTwos x.natAbs x 0
      let x := xe.1
      let e := xe.2
      let s : Int :=
        if e % 2 = 0 then 1
        else
          let s : Int := if p.tmod 8 = 1 ∨ p.tmod 8 = 7 then 1 else 1
          if p.tmod 8 = 3 ∨ p.tmod 8 = 5 then -1 else s
      let s := if p.tmod 4 = 3 ∧ x.tmod 4 = 3 then -s else s
      let p1 := p.tmod x
      if x = 1 then some s
      else (Num.legendreStack depth p1 x).map (fun r => s * r)

end PoS
