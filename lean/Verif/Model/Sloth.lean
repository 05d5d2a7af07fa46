import Verif.Basic

/-
Model of /repo/proof_of_storage/src/vde/rug_sloth.rs (namespace `Rug`),
/repo/proof_of_storage/src/vde/sloth.rs (namespace `Num`) and of `fast_modpow`
in /repo/proof_of_storage/src/vde/compare_modpow.rs.

`rug::Integer` and `num_bigint::BigInt` are `Int`; `%` and `/` truncate
(`Int.tmod`, `Int.tdiv`).
-/

namespace PoS

/-- Square-and-multiply, the evaluation order of `powModNat`; `fuel` bounds the
number of exponent bits. -/
def powModAux : Nat → Nat → Nat → Nat → Nat → Nat
  | 0, _, _, m, acc => acc % m
  | fuel + 1, x, e, m, acc =>
    if e = 0 then acc % m
    else powModAux fuel (x * x % m) (e / 2) m (if e % 2 = 1 then acc * x % m else acc)

/-- `x ^ e % m` computed by repeated squaring (proved equal to it in
`Proofs/Sloth.lean`). -/
def powModNat (x e m : Nat) : Nat := powModAux e x e m 1

/-- Library function `Integer::pow_mod(..).unwrap()` / `BigInt::modpow`: the power
modulo `p`, in `0..p-1`.  Only meaningful for `p > 0` and `e >= 0` (for `p = 0` the
Rust code panics); every theorem assumes a positive modulus. -/
def powMod (x e p : Int) : Int := (powModNat (x % p).toNat e.toNat p.toNat : Nat)

/-- `while x % 2 == 0 { x = x / 2; e += 1 }`, rug_sloth.rs 22-29, sloth.rs 21-28.
Fuel: the number of iterations is at most `|x|` for `x != 0`. -/
def stripTwos : Nat → Int → Nat → Int × Nat
  | 0, x, e => (x, e)
  | fuel + 1, x, e =>
    if x.tmod 2 = 0 then stripTwos fuel (x.tdiv 2) (e + 1) else (x, e)

namespace Rug

/-- `legendre`, rug_sloth.rs 13-55, with recursion fuel (`|x|` decreases). -/
def legendreAux : Nat → Int → Int → Int
  | 0, _, _ => 0
  | fuel + 1, x, p =>
    if x = 0 then 0
    else if x = 1 then 1
    else
      let xe := stripTwos x.natAbs x 0
      let x := xe.1
      let e := xe.2
      let s : Int :=
        if e % 2 = 0 then 1
        else
          let s : Int := if p.tmod 8 = 1 ∨ p.tmod 8 = 7 then 1 else 1
          if p.tmod 8 = 3 ∨ p.tmod 8 = 5 then -1 else s
      let s := if p.tmod 4 = 3 ∧ x.tmod 4 = 3 then -s else s
      let p1 := p.tmod x
      if x = 1 then s else s * legendreAux fuel p1 x

/-- `legendre`, rug_sloth.rs 13-55. -/
def legendre (x p : Int) : Int := legendreAux (x.natAbs + 1) x p

/-- `single_sloth`, rug_sloth.rs 64-88. -/
def singleSloth (x p : Int) : Int :=
  let flag := legendre x p
  let y :=
    if flag = 1 then
      let y := powMod x ((p + 1).tdiv 4) p
      if y.tmod 2 = 1 then (p - y).tmod p else y
    else
      let xx := (p - x).tmod p
      let y := powMod xx ((p + 1).tdiv 4) p
      if y.tmod 2 = 0 then (p - y).tmod p else y
  if y.tmod 2 = 1 then (y + 1).tmod p else (y - 1).tmod p

/-- `sloth`, rug_sloth.rs 90-96. -/
def sloth (y p : Int) : Nat → Int
  | 0 => y
  | t + 1 => singleSloth (sloth y p t) p

/-- `single_sloth_inv`, rug_sloth.rs 98-113; note that method calls bind first and
then `%` before `-`: `p - (pow % p)`. -/
def singleSlothInv (y p : Int) : Int :=
  let x := if y.tmod 2 = 1 then (y + 1).tmod p else (y - 1).tmod p
  if x.tmod 2 = 1 then p - (powMod x 2 p).tmod p else powMod x 2 p

/-- `sloth_inv`, rug_sloth.rs 115-121. -/
def slothInv (y p : Int) : Nat → Int
  | 0 => y
  | t + 1 => singleSlothInv (slothInv y p t) p

end Rug

namespace Num

/-- `legendre`, sloth.rs 12-54, with recursion fuel. -/
def legendreAux : Nat → Int → Int → Int
  | 0, _, _ => 0
  | fuel + 1, x, p =>
    if x = 0 then 0
    else if x = 1 then 1
    else
      let xe := stripTwos x.natAbs x 0
      let x := xe.1
      let e := xe.2
      let s : Int :=
        if e % 2 = 0 then 1
        else
          let s : Int := if p.tmod 8 = 1 ∨ p.tmod 8 = 7 then 1 else 1
          if p.tmod 8 = 3 ∨ p.tmod 8 = 5 then -1 else s
      let s := if p.tmod 4 = 3 ∧ x.tmod 4 = 3 then -s else s
      let p1 := p.tmod x
      if x = 1 then s else s * legendreAux fuel p1 x

/-- `legendre`, sloth.rs 12-54. -/
def legendre (x p : Int) : Int := legendreAux (x.natAbs + 1) x p

/-- `single_sloth`, sloth.rs 56-80. -/
def singleSloth (x p : Int) : Int :=
  let flag := legendre x p
  let y :=
    if flag = 1 then
      let y := powMod x ((p + 1).tdiv 4) p
      if y.tmod 2 = 1 then (p - y).tmod p else y
    else
      let xx := (p - x).tmod p
      let y := powMod xx ((p + 1).tdiv 4) p
      if y.tmod 2 = 0 then (p - y).tmod p else y
  if y.tmod 2 = 1 then (y + 1).tmod p else (y - 1).tmod p

/-- `sloth`, sloth.rs 82-88. -/
def sloth (y p : Int) : Nat → Int
  | 0 => y
  | t + 1 => singleSloth (sloth y p t) p

/-- `single_sloth_inv`, sloth.rs 90-105 (here squaring is exact, then reduced, and
the difference is reduced again). -/
def singleSlothInv (y p : Int) : Int :=
  let x := if y.tmod 2 = 1 then (y + 1).tmod p else (y - 1).tmod p
  if x.tmod 2 = 1 then (p - (x ^ 2).tmod p).tmod p else (x ^ 2).tmod p

/-- `sloth_inv`, sloth.rs 107-113. -/
def slothInv (y p : Int) : Nat → Int
  | 0 => y
  | t + 1 => singleSlothInv (slothInv y p t) p

end Num

/-- The loop of `fast_modpow`, compare_modpow.rs 18-25; fuel bounds the iterations. -/
def fastModpowLoop : Nat → Int → Int → Int → Int → Int
  | 0, _, _, _, res => res
  | fuel + 1, x, t, p, res =>
    if t > 0 then
      let res := if t % 2 = 1 then (res * x).tmod p else res
      fastModpowLoop fuel ((x * x).tmod p) (t.tdiv 2) p res
    else res

/-- `fast_modpow`, compare_modpow.rs 16-27.  `t & 1 == 1` on a two's complement
`BigInt` is `t % 2 = 1` for the floor remainder; the loop runs for `t > 0` only. -/
def fastModpow (x t p : Int) : Int := fastModpowLoop t.toNat x t p 1

/-- `P_64`, rug_sloth.rs 4. -/
def P_64 : Int := 13758676365741467507
/-- `P_128`, rug_sloth.rs 5. -/
def P_128 : Int := 284966011836017917039797442435648636163
/-- `P_256`, rug_sloth.rs 6. -/
def P_256 : Int := 79128031240076844063259589759962924441255910968111729611693920152825864722707
/-- `P_512`, rug_sloth.rs 7. -/
def P_512 : Int := 10711734159436774894171334484137626675507759979749407253125221261168087448899876831488509454695461974257751111853456275453329348448922191916590010377596767
/-- `P_1024`, rug_sloth.rs 8. -/
def P_1024 : Int := 158297696608074679654124946564912202999139663277505984894261981349837992769596165683700437968679604111373729258655046764462137227577322861762501627230418997487671809885760928375348392323002752945263359796693275288611323927303851169352900910708127230034239565388759941444235878668699843286794016470366892082267
/-- `P_2048`, rug_sloth.rs 9. -/
def P_2048 : Int := 22287360226908822233992819736392944434475043692265646916055930477587645696682024041890820611728835974780990571065838330253841354283867699159271588286101147370436450708147936416639540332373863814027801664774471436354150618315722661359913455362721373024713389259210331115681727749894367904502907551083219287819263090154675250911168607561882294815102877332366368477130120481174929478405004375083454233478408080520257325818925705871467706311605717341130286381719809389913520035118471758580658821155908577746981648167876884576360004782560776732442189914352788858257527373771629598261282997979720455015240977446412661775607

end PoS
