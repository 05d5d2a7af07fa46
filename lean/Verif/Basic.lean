/-
Shared vocabulary of the model: panics, checked `usize` arithmetic, indexing,
loops, little-endian numbers and byte-list files.  No definition here models a
function of /repo by itself; they fix the Rust semantics the models rely on.
-/

namespace PoS

/-- The ways a Rust function of /repo can panic (Rust semantics, debug profile). -/
inductive Panic where
  /-- index or slice out of bounds -/
  | index
  /-- `usize` overflow or underflow -/
  | overflow
  /-- division or remainder by zero, `step_by(0)` -/
  | zero
  /-- `unwrap` of `None`/`Err`, failed `expect` -/
  | unwrap
  /-- failed `assert!`/`assert_eq!` -/
  | assertion
  deriving DecidableEq, Repr

/-- Result of a Rust computation that may panic. -/
abbrev R (α : Type) := Except Panic α

/-- `Vec<u8>`; also the content of a file. -/
abbrev Bytes := List UInt8

/-- Equality of results is decidable (used by examples only). -/
instance {ε α : Type} [DecidableEq ε] [DecidableEq α] : DecidableEq (Except ε α)
  | .ok a, .ok b => if h : a = b then isTrue (by rw [h]) else isFalse (by intro e; cases e; exact h rfl)
  | .error a, .error b =>
    if h : a = b then isTrue (by rw [h]) else isFalse (by intro e; cases e; exact h rfl)
  | .ok _, .error _ => isFalse (by intro e; cases e)
  | .error _, .ok _ => isFalse (by intro e; cases e)

/-- `v[i]` on a `Vec`/slice: panics when out of bounds. -/
def at! {α : Type} (l : List α) (i : Nat) : R α :=
  match l[i]? with
  | some a => .ok a
  | none => .error .index

/-- `v[i] = a` on a `Vec`: panics when out of bounds. -/
def put! {α : Type} (l : List α) (i : Nat) (a : α) : R (List α) :=
  if i < l.length then .ok (l.set i a) else .error .index

/-- `&v[a..b]`: panics unless `a <= b <= v.len()`. -/
def slice! {α : Type} (l : List α) (a b : Nat) : R (List α) :=
  if a ≤ b ∧ b ≤ l.length then .ok ((l.drop a).take (b - a)) else .error .index

/-- `a - b` on `usize`. -/
def sub! (a b : Nat) : R Nat := if b ≤ a then .ok (a - b) else .error .overflow

/-- `a % b` on `usize`. -/
def mod! (a b : Nat) : R Nat := if b = 0 then .error .zero else .ok (a % b)

/-- `a / b` on `usize`. -/
def div! (a b : Nat) : R Nat := if b = 0 then .error .zero else .ok (a / b)

/-- `usize::pow(2, i.try_into().unwrap())` on a 64-bit platform. -/
def pow2! (i : Nat) : R Nat := if i < 64 then .ok (2 ^ i) else .error .overflow

/-- `for i in 0..n { s = f(i, s) }`. -/
def forUp {σ : Type} : Nat → (Nat → σ → R σ) → σ → R σ
  | 0, _, s => .ok s
  | n + 1, f, s => do
    let s ← forUp n f s
    f n s

/-- `for x in xs { s = f(x, s) }`. -/
def forEach {α σ : Type} : List α → (α → σ → R σ) → σ → R σ
  | [], _, s => .ok s
  | x :: xs, f, s => do
    let s ← f x s
    forEach xs f s

/-- Value of a little-endian byte string (`Integer::from_digits(_, Order::Lsf)`,
`BigInt::from_bytes_le(Sign::Plus, _)`). -/
def leNat : Bytes → Nat
  | [] => 0
  | b :: bs => b.toNat + 256 * leNat bs

/-- Minimal little-endian digits; `fuel` bounds the number of digits. -/
def toLEAux : Nat → Nat → Bytes
  | 0, _ => []
  | fuel + 1, n => if n = 0 then [] else UInt8.ofNat (n % 256) :: toLEAux fuel (n / 256)

/-- `rug::Integer::to_digits::<u8>(Order::Lsf)` of a non-negative integer: minimal
little-endian digits, the empty list for zero. -/
def toLE (n : Nat) : Bytes := toLEAux n n

/-- `vec![0u8; n]`. -/
def zeros (n : Nat) : Bytes := List.replicate n 0

/-- Overwrite (and if necessary extend) a file at an offset: `seek` + `write_all`.
A gap beyond the end is filled with zeros, as POSIX does. -/
def writeAt (f : Bytes) (off : Nat) (data : Bytes) : Bytes :=
  f.take off ++ zeros (off - f.length) ++ data ++ f.drop (off + data.length)

/-- `gen_range(lo .. hi)` of rand on a nonempty range: a random number mapped into the range.
Simplification: rand rejects some of its 64-bit numbers so that all values of the range are
equally likely; here `raw` stands for what is left after that. -/
def genRange (raw lo hi : Nat) : Nat := lo + raw % (hi - lo)

end PoS
