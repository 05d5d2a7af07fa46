import Verif.Basic

/-
Model of the Python scripts: /repo/proof_of_storage/src/vde/prime.py (which produced the moduli),
/repo/proof_of_storage/src/proof_of_storage/file_compare.py (which judges a round trip) and
/repo/proof_of_storage/src/vde/test_modpow.py (which times modular exponentiation).
Python integers are modelled as `Nat` where the arguments are non-negative, as `Int` otherwise; the random generator is a
parameter, one value per call.
-/

namespace PoS

/-- The loop of prime.py 4-8: divide by two as long as possible, counting; `fuel` bounds the number
of iterations. -/
def rmSplit : Nat → Nat → Nat → Nat × Nat
  | 0, s, t => (s, t)
  | fuel + 1, s, t => if s % 2 = 0 then rmSplit fuel (s / 2) (t + 1) else (s, t)

/-- The loop of prime.py 14-20, from `i`: `true` when it leaves with `v == num - 1`, `false` for
`return False`; `fuel` bounds the number of iterations. -/
def rmInner (num t : Nat) : Nat → Nat → Nat → Bool
  | 0, _, _ => false
  | fuel + 1, i, v =>
    if v ≠ num - 1 then
      if i + 1 = t then false
      else rmInner num t fuel (i + 1) (v ^ 2 % num)
    else true

/-- One trial, prime.py 11-20, with base `a`. -/
def rmTrial (num s t a : Nat) : Bool :=
  let v := a ^ s % num
  if v ≠ 1 then rmInner num t t 0 v else true

/-- `rabin_miller`, prime.py 3-21; `a k` is the random number of trial `k`, from which
`randrange(2, num - 1)` makes the base.  Termination: for an odd argument above one both loops end
within the fuel given here, see `C55_rabin_miller_iff`.  Simplification: `randrange` raises for
arguments below 4, with which `is_prime` never calls this function. -/
def rabinMiller (a : Nat → Nat) (num : Nat) : Bool :=
  let st := rmSplit num (num - 1) 0
  (List.range 5).all (fun k => rmTrial num st.1 st.2 (genRange (a k) 2 (num - 1)))

/-- `small_primes`, prime.py 31-50. -/
def smallPrimes : List Nat :=
  [2, 3, 5, 7, 11, 13, 17, 19, 23, 29,
   31, 37, 41, 43, 47, 53, 59, 61, 67,
   71, 73, 79, 83, 89, 97, 101, 103, 107,
   109, 113, 127, 131, 137, 139, 149, 151,
   157, 163, 167, 173, 179, 181, 191, 193,
   197, 199, 211, 223, 227, 229, 233, 239,
   241, 251, 257, 263, 269, 271, 277, 281,
   283, 293, 307, 311, 313, 317, 331, 337,
   347, 349, 353, 359, 367, 373, 379, 383,
   389, 397, 401, 409, 419, 421, 431, 433,
   439, 443, 449, 457, 461, 463, 467, 479,
   487, 491, 499, 503, 509, 521, 523, 541,
   547, 557, 563, 569, 571, 577, 587, 593,
   599, 601, 607, 613, 617, 619, 631, 641,
   643, 647, 653, 659, 661, 673, 677, 683,
   691, 701, 709, 719, 727, 733, 739, 743,
   751, 757, 761, 769, 773, 787, 797, 809,
   811, 821, 823, 827, 829, 839, 853, 857,
   859, 863, 877, 881, 883, 887, 907, 911,
   919, 929, 937, 941, 947, 953, 967, 971, 977, 983, 991, 997]

/-- `is_prime`, prime.py 24-61. -/
def isPrimePy (a : Nat → Nat) (num : Nat) : Bool :=
  if num < 2 then false
  else if smallPrimes.contains num then true
  else if smallPrimes.any (fun p => num % p = 0) then false
  else rabinMiller a num

/-- `get_prime`, prime.py 64-69, from iteration `k`: `draw k` is the random number from which the
candidate of iteration `k` is made and `a k` those drawn while testing it.  `none` when no candidate
among the next `fuel` is accepted. -/
def getPrime (keySize : Nat) (draw : Nat → Nat) (a : Nat → Nat → Nat) : Nat → Nat → Option Nat
  | 0, _ => none
  | fuel + 1, k =>
    let num := genRange (draw k) (2 ^ (keySize - 1)) (2 ^ keySize)
    if isPrimePy (a k) num = true ∧ num % 4 = 3 then some num else getPrime keySize draw a fuel (k + 1)

/-- file_compare.py 6-18: `is_right` and `wrong_count` for the contents of the two files. -/
def fileCompare (a b : Bytes) : Bool × Nat :=
  (List.range (min a.length b.length)).foldl
    (fun st i => if a[i]? ≠ b[i]? then (false, st.2 + 1) else st) (true, 0)

/-- `int(t / 2)` for a positive Python integer, test_modpow.py 19.  `/` is the true division of
Python 3, whose result is a double: the quotient rounded to 53 significant bits, ties to even, and an
`OverflowError` when the rounded quotient is not below 2^1024.  A quotient of at most 53 bits after
the binary point has been dropped is exact, and `int` truncates. -/
def pyHalf (t : Nat) : R Nat :=
  if t < 2 ^ 53 then .ok (t / 2)
  else
    let s := Nat.log2 t - 52
    let q := t / 2 ^ s
    let r := t % 2 ^ s
    let q := if 2 ^ s < 2 * r ∨ (2 * r = 2 ^ s ∧ q % 2 = 1) then q + 1 else q
    if 2 ^ 1024 ≤ q * 2 ^ (s - 1) then .error .overflow else .ok (q * 2 ^ (s - 1))

/-- The loop of test_modpow.py 16-20; `%` of Python is the floor remainder and raises for a zero
modulus; `fuel` bounds the number of iterations. -/
def fastModPowPyLoop (p : Int) : Nat → Int → Nat → Int → R Int
  | 0, _, _, result => .ok result
  | fuel + 1, x, t, result =>
    if t = 0 then .ok result
    else do
      let result ← (if t % 2 = 1 then (if p = 0 then .error .zero else .ok ((result * x).fmod p)) else .ok result : R Int)
      let t ← pyHalf t
      let x ← (if p = 0 then .error .zero else .ok ((x * x).fmod p) : R Int)
      fastModPowPyLoop p fuel x t result

/-- `fastModPow`, test_modpow.py 11-21.  The loop is not entered for a negative exponent.  Every
iteration decreases `t`, so the fuel is never used up (`pyHalf_lt`). -/
def fastModPowPy (x t p : Int) : R Int := fastModPowPyLoop p t.toNat x t.toNat 1

end PoS
