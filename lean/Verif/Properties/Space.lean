import Verif.Proofs.Space
import Verif.Properties.Mimc

/-
C36-C41, C48: bit conversions, the lookup table in the space file, responses, challenges and
the verdict of the space verifier.
-/

namespace PoS

/-! ### C36: bits and bytes -/

/-- Packing never panics; unpacking the result gives the bits back, padded with `false` to a
multiple of eight; packing the bits of a byte list gives the byte list; lengths are exact. -/
theorem C36_bits_bytes (bits : List Bool) (bytes : Bytes) :
    bitsToBytes (bytesToBits bytes) = .ok bytes ∧ (bytesToBits bytes).length = 8 * bytes.length ∧
    ∃ packed, bitsToBytes bits = .ok packed ∧ packed.length = (bits.length + 7) / 8 ∧
      bytesToBits packed = bits ++ List.replicate (8 * packed.length - bits.length) false :=
  ⟨bitsToBytes_bytesToBits bytes, bytesToBits_length bytes, bitsToBytes_spec bits⟩

/-- Bit `k` of byte `i` is position `8 i + k`, least significant first. -/
theorem C36_bit_order (bytes : Bytes) (i k : Nat) (hi : i < bytes.length) (hk : k < 8) :
    (bytesToBits bytes)[8 * i + k]? = some (bytes[i].toNat.testBit k) := by
  have gen : ∀ m x k, k < m → (bitsOf m x)[k]? = some (x.testBit k) := by
    intro m
    induction m with
    | zero => intro x k h; omega
    | succ m ih =>
      intro x k h
      cases k with
      | zero =>
        rw [bitsOf, List.getElem?_cons_zero, Nat.testBit_zero]
        by_cases hx : x % 2 = 1 <;> simp [hx]
      | succ k =>
        rw [bitsOf, List.getElem?_cons_succ, ih _ _ (by omega), Nat.testBit_succ]
  rw [bytesToBits_getElem?, show (8 * i + k) / 8 = i by omega, show (8 * i + k) % 8 = k by omega,
    List.getElem?_eq_getElem hi, Option.bind_some, gen 8 _ k hk]

example : bitsToBytes [true, false, true, false, false, false, false, false, true] = .ok [5, 1] := by decide +kernel

/-! ### C37: bits and integers -/

/-- `usize_to_bits(x, n)` has exactly `n` bits and `bits_to_usize` of it is `x mod 2^n`. -/
theorem C37_round_trip (x n : Nat) (h1 : 0 < n) (h64 : n < 64) :
    ∃ bits, usizeToBits x n = .ok bits ∧ bits.length = n ∧ bitsToUsize bits = .ok (x % 2 ^ n) :=
  ⟨_, usizeToBits_eq x n h1, bitsOf_length n x, by
    rw [bitsToUsize_eq _ (by simpa using h64), bitsVal_bitsOf]⟩

/-- `bits_to_usize` panics (overflow of `base`) exactly from 64 bits on, even if the value
would fit; below it is injective on lists of equal length and `usize_to_bits` inverts it. -/
theorem C37_usize_of_bits (bits : List Bool) :
    (64 ≤ bits.length → bitsToUsize bits = .error .overflow) ∧
    (bits.length < 64 → ∃ v, bitsToUsize bits = .ok v ∧ v < 2 ^ bits.length ∧
      (bits ≠ [] → usizeToBits v bits.length = .ok bits)) := by
  refine ⟨bitsToUsize_overflow bits, fun h => ⟨bitsVal bits, bitsToUsize_eq bits h, bitsVal_lt bits, fun hne => ?_⟩⟩
  rw [usizeToBits_eq _ _ (List.length_pos_of_ne_nil hne), bitsOf_bitsVal]

/-- With zero bits requested, `usize_to_bits` panics exactly on odd numbers. -/
theorem C37_zero_bits (x : Nat) : usizeToBits x 0 = if x % 2 = 1 then .error .index else .ok [] := by
  unfold usizeToBits
  cases x with
  | zero => rfl
  | succ x =>
    unfold usizeToBitsLoop
    rw [if_pos (by omega)]
    by_cases h : (x + 1) % 2 = 1
    · rw [if_pos h, if_pos h]; rfl
    · rw [if_neg h, if_neg h]; rfl

example : usizeToBits 6 4 = .ok [false, true, true, false] ∧ bitsToUsize [false, true, true, false] = .ok 6 := by
  decide +kernel

/-! ### C38: the table -/

theorem bitsOf_take (k n x : Nat) (h : n ≤ k) : (bitsOf k x).take n = bitsOf n x := by
  induction n generalizing k x with
  | zero => rfl
  | succ n ih =>
    cases k with
    | zero => omega
    | succ k => rw [bitsOf, bitsOf, List.take_succ_cons, ih k _ (by omega)]

theorem slotOf_eq {q : Nat} (key m : ZMod q) (cs : List (ZMod q)) (hcs : cs.length = 10) (n x : Nat) (h64 : n < 64) :
    ∃ y, mimc5Df ((x : ZMod q) + key) m cs = .ok y ∧ slotOf key m cs n x = .ok (y.val % 2 ^ n) := by
  refine ⟨_, mimc5Df_eq _ _ cs hcs, ?_⟩
  unfold slotOf
  rw [mimc5Df_eq _ _ cs hcs, bind_ok]
  have : ∀ v, slice! (bitsOf 256 v) 0 n = .ok (bitsOf n v) := by
    intro v
    unfold slice!
    rw [if_pos (by simp; omega), Nat.sub_zero, List.drop_zero, bitsOf_take _ _ _ (by omega)]
  rw [this, bind_ok, bitsToUsize_eq _ (by simpa using h64), bitsVal_bitsOf]

/-- The bits of slot `y` in a file of slots of `n + 1` bits. -/
def slotBits (file : Bytes) (n y : Nat) : List Bool := ((bytesToBits file).drop ((n + 1) * y)).take (n + 1)

theorem slotBits_getElem? (file : Bytes) (n y j : Nat) :
    (slotBits file n y)[j]? = if j < n + 1 then (bytesToBits file)[(n + 1) * y + j]? else none := by
  unfold slotBits
  by_cases h : j < n + 1
  · rw [if_pos h, List.getElem?_take_of_lt h, List.getElem?_drop]
  · rw [if_neg h, List.getElem?_eq_none]
    simp only [List.length_take]; omega

/-- What the table says about `y` after the inputs below `k`. -/
def TableAt (slot : Nat → Nat) (n k y : Nat) (bits : List Bool) : Prop :=
  (∃ x < k, slot x = y ∧ (∀ x' < k, slot x' = y → x' ≤ x) ∧ bits = bitsOf n x ++ [true]) ∨
  ((∀ x < k, slot x ≠ y) ∧ bits = List.replicate (n + 1) false)

theorem mark_loop {q : Nat} {key m : ZMod q} {cs : List (ZMod q)} {n : Nat} (hn : 0 < n) {slot : Nat → Nat}
    (hslot : ∀ x, slotOf key m cs n x = .ok (slot x)) (hlt : ∀ x, slot x < 2 ^ n) {file : Bytes}
    (hlen : 8 * file.length = (n + 1) * 2 ^ n) (hzero : ∀ y < 2 ^ n, slotBits file n y = List.replicate (n + 1) false)
    (k : Nat) :
    ∃ f, forUp k (fun x file => do
      let y ← slotOf key m cs n x
      let xBits ← usizeToBits x n
      let xBits := xBits ++ [true]
      markBits file ((n + 1) * y) xBits) file = .ok f ∧ f.length = file.length ∧
      ∀ y < 2 ^ n, TableAt slot n k y (slotBits f n y) := by
  induction k with
  | zero => exact ⟨file, rfl, rfl, fun y hy => Or.inr ⟨by intro x hx; omega, hzero y hy⟩⟩
  | succ k ih =>
    obtain ⟨f, e, hl, ht⟩ := ih
    have hb : (n + 1) * slot k + (n + 1) ≤ (n + 1) * 2 ^ n := by
      have := Nat.mul_le_mul_left (n + 1) (hlt k)
      rwa [Nat.mul_succ] at this
    obtain ⟨f', e', hl', hbits⟩ := markBits_spec (file := f) (start := (n + 1) * slot k) (xs := bitsOf n k ++ [true])
      (by simp; omega) (by simp)
    refine ⟨f', ?_, by omega, ?_⟩
    · rw [forUp_succ, e, bind_ok, hslot, bind_ok, usizeToBits_eq _ _ hn, bind_ok]
      exact e'
    · intro y hy
      simp only [List.length_append, bitsOf_length, List.length_singleton] at hbits
      by_cases hys : slot k = y
      · subst hys
        left
        refine ⟨k, by omega, rfl, fun x' hx' _ => by omega, ?_⟩
        apply List.ext_getElem?
        intro j
        rw [slotBits_getElem?]
        by_cases hj : j < n + 1
        · rw [if_pos hj, hbits, if_pos (by omega), Nat.add_sub_cancel_left]
        · rw [if_neg hj, List.getElem?_eq_none (by simp; omega)]
      · have hsame : slotBits f' n y = slotBits f n y := by
          apply List.ext_getElem?
          intro j
          rw [slotBits_getElem?, slotBits_getElem?]
          by_cases hj : j < n + 1
          · rw [if_pos hj, if_pos hj, hbits, if_neg]
            rintro ⟨h1, h2⟩
            rcases Nat.lt_or_ge (slot k) y with h | h
            · have := Nat.mul_le_mul_left (n + 1) h
              rw [Nat.mul_succ] at this
              omega
            · have : y + 1 ≤ slot k := by omega
              have := Nat.mul_le_mul_left (n + 1) this
              rw [Nat.mul_succ] at this
              omega
          · rw [if_neg hj, if_neg hj]
        rw [hsame]
        rcases ht y hy with ⟨x, hx, h1, h2, h3⟩ | ⟨h1, h2⟩
        · left
          refine ⟨x, by omega, h1, fun x' hx' hs => ?_, h3⟩
          by_cases hk : x' = k
          · subst hk; exact absurd hs hys
          · exact h2 x' (by omega) hs
        · right
          refine ⟨fun x hx hs => ?_, h2⟩
          by_cases hk : x = k
          · subst hk; exact hys hs
          · exact h1 x (by omega) hs

theorem bytesToBits_zeros (k : Nat) : bytesToBits (zeros k) = List.replicate (8 * k) false := by
  induction k with
  | zero => rfl
  | succ k ih =>
    have : zeros (k + 1) = 0 :: zeros k := by unfold zeros; rw [List.replicate_succ]
    rw [this, bytesToBits_cons, ih, show 8 * (k + 1) = 8 + 8 * k by omega, List.replicate_add]
    rfl

/-- The table with the helper predicate; the property `C38_table` below spells it out. -/
theorem space_table {q : Nat} (key m : ZMod q) (cs : List (ZMod q)) (hcs : cs.length = 10) (n : Nat) (h3 : 3 ≤ n)
    (h64 : n < 64) :
    ∃ slot : Nat → Nat, (∀ x : Nat, ∃ y, mimc5Df ((x : ZMod q) + key) m cs = .ok y ∧ slot x = y.val % 2 ^ n) ∧
      ∃ file, (prepareSpace n >>= fun f => markSpace f key m cs n) = .ok file ∧
        8 * file.length = (n + 1) * 2 ^ n ∧ ∀ y < 2 ^ n, TableAt slot n (2 ^ n) y (slotBits file n y) := by
  choose y hy hs using fun x => slotOf_eq key m cs hcs n x h64
  have h8 : 8 * ((n + 1) * 2 ^ n / 8) = (n + 1) * 2 ^ n := by
    obtain ⟨d, rfl⟩ : ∃ d, n = 3 + d := ⟨n - 3, by omega⟩
    rw [Nat.pow_add, show (3 + d + 1) * (2 ^ 3 * 2 ^ d) = 8 * ((3 + d + 1) * 2 ^ d) by ring]
    omega
  obtain ⟨f, e, hl, ht⟩ := mark_loop (file := zeros ((n + 1) * 2 ^ n / 8)) (by omega) hs
    (fun x => Nat.mod_lt _ (Nat.two_pow_pos n)) (by simp [zeros]; exact h8) (by
      intro y hy
      unfold slotBits
      rw [bytesToBits_zeros, h8, List.drop_replicate, List.take_replicate]
      congr 1
      have := Nat.mul_le_mul_left (n + 1) hy
      rw [Nat.mul_succ] at this
      omega) (2 ^ n)
  refine ⟨_, fun x => ⟨y x, hy x, rfl⟩, f, ?_, ?_, ht⟩
  · unfold prepareSpace
    rw [show pow2! n = .ok (2 ^ n) from if_pos h64, bind_ok]
    show markSpace (zeros ((n + 1) * 2 ^ n / 8)) key m cs n = _
    unfold markSpace
    rw [show pow2! n = .ok (2 ^ n) from if_pos h64, bind_ok]
    exact e
  · rw [hl]; simp [zeros]; exact h8

/-- After preparing and marking the space, for every `y` below `2^n`: if some input below `2^n`
maps to `y` then the `n + 1` bits at bit position `(n + 1) y` are the largest such input
followed by the flag; otherwise they are all zero.  Here `x` maps to the low `n` bits of
`mimc5_df(x + key, m)`.  The file keeps its length `(n + 1) 2^n / 8`. -/
theorem C38_table {q : Nat} (key m : ZMod q) (cs : List (ZMod q)) (hcs : cs.length = 10) (n : Nat) (h3 : 3 ≤ n)
    (h64 : n < 64) :
    ∃ slot : Nat → Nat, (∀ x : Nat, ∃ y, mimc5Df ((x : ZMod q) + key) m cs = .ok y ∧ slot x = y.val % 2 ^ n) ∧
      ∃ file, (prepareSpace n >>= fun f => markSpace f key m cs n) = .ok file ∧
        8 * file.length = (n + 1) * 2 ^ n ∧
        ∀ y < 2 ^ n,
          (∀ x < 2 ^ n, slot x = y → (∀ x' < 2 ^ n, slot x' = y → x' ≤ x) →
            ∃ low, ((bytesToBits file).drop ((n + 1) * y)).take (n + 1) = low ++ [true] ∧ low.length = n ∧
              bitsToUsize low = .ok x) ∧
          ((∀ x < 2 ^ n, slot x ≠ y) →
            ((bytesToBits file).drop ((n + 1) * y)).take (n + 1) = List.replicate (n + 1) false) := by
  obtain ⟨slot, h1, file, h2, hl, ht⟩ := space_table key m cs hcs n h3 h64
  refine ⟨slot, h1, file, h2, hl, fun y hy => ⟨fun x hx hs hmax => ?_, fun hno => ?_⟩⟩
  · rcases ht y hy with ⟨x', hx', hs', hmax', hb⟩ | ⟨hno, -⟩
    · have : x' = x := le_antisymm (hmax x' hx' hs') (hmax' x hx hs)
      subst this
      refine ⟨bitsOf n x', hb, by simp, ?_⟩
      rw [bitsToUsize_eq _ (by simpa using h64), bitsVal_bitsOf, Nat.mod_eq_of_lt hx]
    · exact absurd hs (hno x hx)
  · rcases ht y hy with ⟨x', hx', hs', -, -⟩ | ⟨-, hb⟩
    · exact absurd hs' (hno x' hx')
    · exact hb

/-! ### C39: responses -/

theorem respLoop_eq {q : Nat} {file : Bytes} {n want : Nat} (h64 : n < 64) (look : Nat → Option Nat)
    (chs : List Nat)
    (hread : ∀ y ∈ chs, ∃ bits, readSlot file n y = .ok bits ∧
      (∀ x, look y = some x → bits = bitsOf n x ++ [true] ∧ x < 2 ^ n) ∧
      (look y = none → bits = List.replicate (n + 1) false))
    (i : Nat) (s : RespState q) (hc : s.count < want) :
    respLoop file n want chs i s =
      (let pairs := ((chs.zipIdx i).filterMap (fun yi => (look yi.1).map (fun x => (x, yi.2)))).take (want - s.count)
       .ok ⟨s.xs ++ pairs.map (fun xi => (xi.1 : ZMod q)), s.idxs ++ pairs.map Prod.snd, s.count + pairs.length⟩) := by
  induction chs generalizing i s with
  | nil => simp [respLoop]
  | cons y chs ih =>
    obtain ⟨bits, hr, hsome, hnone⟩ := hread y (by simp)
    have ih := ih (fun z hz => hread z (by simp [hz]))
    unfold respLoop
    rw [hr, bind_ok]
    cases hl : look y with
    | none =>
      have hb := hnone hl
      have hflag : at! bits n = .ok false := by
        rw [at!_eq_ok, hb, List.getElem?_replicate, if_pos (by omega)]
      rw [hflag, bind_ok, if_neg (by simp)]
      show (if s.count = want then _ else respLoop file n want chs (i + 1) s) = _
      rw [if_neg (by omega), ih (i + 1) s hc]
      simp [List.zipIdx_cons, List.filterMap_cons, hl]
    | some x =>
      obtain ⟨hb, hx⟩ := hsome x hl
      have hflag : at! bits n = .ok true := by
        rw [at!_eq_ok, hb, List.getElem?_append_right (by simp)]; simp
      have hsl : slice! bits 0 n = .ok (bitsOf n x) := by
        unfold slice!
        rw [if_pos (by rw [hb]; simp), hb, Nat.sub_zero, List.drop_zero]
        have := List.take_left (l₁ := bitsOf n x) (l₂ := [true])
        rw [bitsOf_length] at this
        rw [this]
      rw [hflag, bind_ok, if_pos rfl, hsl, bind_ok, bitsToUsize_eq _ (by simpa using h64), bind_ok, bitsVal_bitsOf,
        Nat.mod_eq_of_lt hx]
      show (if s.count + 1 = want then _ else respLoop file n want chs (i + 1) _) = _
      by_cases hw : s.count + 1 = want
      · rw [if_pos hw, show want - s.count = 1 by omega]
        simp [List.zipIdx_cons, List.filterMap_cons, hl]
      · rw [if_neg hw, ih (i + 1) _ (by simp only; omega)]
        simp only [List.zipIdx_cons, List.filterMap_cons, hl, Option.map_some]
        rw [show want - s.count = (want - (s.count + 1)) + 1 by omega, List.take_succ_cons]
        simp
        omega

theorem multiMimc5Hash_total {F : Type} [CommRing F] (xs : List F) (key : F) (cs : List F) (h : 10 ≤ cs.length) :
    ∃ r, multiMimc5Hash xs key cs = .ok r := by
  unfold multiMimc5Hash
  induction xs generalizing key with
  | nil => exact ⟨key, rfl⟩
  | cons x xs ih =>
    rw [forEach_cons, mimc5Hash_eq _ _ _ h, bind_ok]
    exact ih _

/-- On a marked space `response_1` returns exactly the first `want` challenges (in order) that
have a preimage, each with its position and the stored preimage (the largest input mapping to
it), and the hash of the preimages.  `look y` is that preimage, if there is one. -/
theorem C39_response {q : Nat} (key m : ZMod q) (cs : List (ZMod q)) (hcs : cs.length = 10) (n : Nat) (h3 : 3 ≤ n)
    (h64 : n < 64) (hashCs : List (ZMod q)) (hh : 10 ≤ hashCs.length) (challenges : List Nat)
    (hch : ∀ y ∈ challenges, y < 2 ^ n) (want : Nat) (hw : 0 < want) :
    ∃ slot : Nat → Nat, (∀ x : Nat, ∃ y, mimc5Df ((x : ZMod q) + key) m cs = .ok y ∧ slot x = y.val % 2 ^ n) ∧
    ∃ look : Nat → Option Nat,
      (∀ y x, look y = some x → x < 2 ^ n ∧ slot x = y ∧ ∀ x' < 2 ^ n, slot x' = y → x' ≤ x) ∧
      (∀ y < 2 ^ n, look y = none → ∀ x < 2 ^ n, slot x ≠ y) ∧
      ∃ file h, (prepareSpace n >>= fun f => markSpace f key m cs n) = .ok file ∧
        let hits := (challenges.zipIdx.filterMap (fun yi => (look yi.1).map (fun x => (x, yi.2)))).take want
        response1 file challenges key hashCs n want =
          .ok (hits.map (fun xi => (xi.1 : ZMod q)), hits.map Prod.snd, h) ∧
        multiMimc5Hash (hits.map (fun xi => (xi.1 : ZMod q))) key hashCs = .ok h := by
  obtain ⟨slot, h1, file, h2, hl, ht⟩ := space_table key m cs hcs n h3 h64
  have hex : ∀ y, ∃ o : Option Nat, y < 2 ^ n →
      ((∀ x, o = some x → x < 2 ^ n ∧ slot x = y ∧ (∀ x' < 2 ^ n, slot x' = y → x' ≤ x) ∧
        slotBits file n y = bitsOf n x ++ [true]) ∧
      (o = none → (∀ x < 2 ^ n, slot x ≠ y) ∧ slotBits file n y = List.replicate (n + 1) false)) := by
    intro y
    by_cases hy : y < 2 ^ n
    · rcases ht y hy with ⟨x, hx⟩ | hno
      · refine ⟨some x, fun _ => ⟨fun x' e => ?_, fun e => by cases e⟩⟩
        cases e
        exact hx
      · exact ⟨none, fun _ => ⟨fun x e => (by cases e), fun _ => hno⟩⟩
    · exact ⟨none, fun h => absurd h hy⟩
  choose o ho using hex
  classical
  let look : Nat → Option Nat := fun y => if y < 2 ^ n then o y else none
  have hlook : ∀ y < 2 ^ n, look y = o y := fun y hy => if_pos hy
  have hloop := respLoop_eq (q := q) (want := want) h64 look challenges (file := file) (by
    intro y hy
    have hyn := hch y hy
    obtain ⟨bits, r1, r2, -⟩ := readSlot_spec (file := file) (n := n) (yn := y) (by
      rw [hl]
      have := Nat.mul_le_mul_left (n + 1) hyn
      rwa [Nat.mul_succ] at this)
    obtain ⟨w1, w2⟩ := ho y hyn
    refine ⟨bits, r1, fun x hx => ?_, fun hx => ?_⟩
    · rw [hlook y hyn] at hx
      obtain ⟨a1, -, -, a4⟩ := w1 x hx
      exact ⟨by rw [r2]; exact a4, a1⟩
    · rw [hlook y hyn] at hx
      rw [r2]; exact (w2 hx).2) 0 ⟨[], [], 0⟩ hw
  obtain ⟨h, hhash⟩ := multiMimc5Hash_total
    (((challenges.zipIdx.filterMap (fun yi => (look yi.1).map (fun x => (x, yi.2)))).take want).map
      (fun xi => (xi.1 : ZMod q))) key hashCs hh
  refine ⟨slot, h1, look, ?_, ?_, file, h, h2, ?_, hhash⟩
  · intro y x hx
    by_cases hy : y < 2 ^ n
    · rw [hlook y hy] at hx
      obtain ⟨a1, a2, a3, -⟩ := (ho y hy).1 x hx
      exact ⟨a1, a2, a3⟩
    · simp [look, hy] at hx
  · intro y hy hx
    rw [hlook y hy] at hx
    exact ((ho y hy).2 hx).1
  · unfold response1
    rw [hloop]
    simp only [bind_ok, List.nil_append, Nat.sub_zero]
    rw [hhash]
    rfl

/-- A concrete table with hits, misses and a collision; the first two marked challenges are
reported. -/
example : (match prepareSpace 3 >>= fun f => markSpace f (5 : ZMod 103) 7 [1, 2, 3, 4, 5, 6, 7, 8, 9, 10] 3 with
    | .ok file => (match response1 file [0, 1, 2, 3, 4, 5, 6, 7] (5 : ZMod 103) [1, 2, 3, 4, 5, 6, 7, 8, 9, 10] 3 2 with
      | .ok (xs, idxs, _) => decide (file.length = 4 ∧ xs.length = 2 ∧ idxs.length = 2 ∧
          ∀ t < 2, slotOf (5 : ZMod 103) 7 [1, 2, 3, 4, 5, 6, 7, 8, 9, 10] 3 (xs[t]?.getD 0).val = .ok (idxs[t]?.getD 99))
      | .error _ => false)
    | .error _ => false) = true := by decide +kernel

/-! ### C40: n = 2 -/

/-- For `n = 2` the prepared file has one byte, the table needs twelve bits; over the shipped
field there are key, message and constants such that challenge 3, which has no preimage at all,
is answered with a stale "preimage". -/
theorem C40_small_space_corrupt : ∃ (key m : ZMod blsR) (cs hashCs : List (ZMod blsR)) (file : Bytes)
    (x h : ZMod blsR),
    cs.length = 10 ∧ (∃ f, prepareSpace 2 = .ok f ∧ f.length = 1) ∧
    (prepareSpace 2 >>= fun f => markSpace f key m cs 2) = .ok file ∧
    response1 file [3] key hashCs 2 RESPONSE_COUNT = .ok ([x], [0], h) ∧
    (∀ z < 4, slotOf key m cs 2 z ≠ .ok 3) := by
  have hm : (prepareSpace 2 >>= fun f => markSpace f (12 : ZMod blsR) 7 [1, 2, 3, 4, 5, 6, 7, 8, 9, 10] 2) =
      .ok [232, 169] := by decide +kernel
  have hr : (match response1 [232, 169] [3] (12 : ZMod blsR) [1, 2, 3, 4, 5, 6, 7, 8, 9, 10] 2 RESPONSE_COUNT with
      | .ok (xs, idxs, _) => decide (xs = [0] ∧ idxs = [0])
      | .error _ => false) = true := by decide +kernel
  have hs : ∀ z < 4, slotOf (12 : ZMod blsR) 7 [1, 2, 3, 4, 5, 6, 7, 8, 9, 10] 2 z ≠ .ok 3 := by decide +kernel
  cases hresp : response1 [232, 169] [3] (12 : ZMod blsR) [1, 2, 3, 4, 5, 6, 7, 8, 9, 10] 2 RESPONSE_COUNT with
  | error e => rw [hresp] at hr; simp at hr
  | ok o =>
    obtain ⟨xs, idxs, h⟩ := o
    rw [hresp] at hr
    simp only [decide_eq_true_eq] at hr
    obtain ⟨rfl, rfl⟩ := hr
    exact ⟨12, 7, [1, 2, 3, 4, 5, 6, 7, 8, 9, 10], [1, 2, 3, 4, 5, 6, 7, 8, 9, 10], [232, 169], 0, h, rfl,
      ⟨[0], by decide +kernel, rfl⟩, hm, hresp, hs⟩

/-! ### C41: challenges -/

/-- The bits drawn for challenge `i`. -/
theorem spaceChallenges_eq (draw : Nat → Nat) (n bits : Nat) (hb : bits < 64) :
    spaceChallenges draw n bits =
      .ok ((List.range n).map (fun i => bitsVal ((List.range bits).map (fun k => draw (i * bits + k) % 2 == 1)))) := by
  have inner : ∀ i, ∀ b, forUp b (fun k c => do
      let x ← at! [false, true] (genRange (draw (i * bits + k)) 0 2)
      pure (c ++ [x])) ([] : List Bool) = .ok ((List.range b).map (fun k => draw (i * bits + k) % 2 == 1)) := by
    intro i b
    induction b with
    | zero => rfl
    | succ b ih =>
      rw [forUp_succ, ih, bind_ok, List.range_succ, List.map_append]
      have h01 : draw (i * bits + b) % 2 = 0 ∨ draw (i * bits + b) % 2 = 1 := by omega
      have hg : genRange (draw (i * bits + b)) 0 2 = draw (i * bits + b) % 2 := by simp [genRange]
      rcases h01 with h | h <;> rw [hg, h] <;> simp [at!, h]
  unfold spaceChallenges
  induction n with
  | zero => rfl
  | succ n ih =>
    rw [forUp_succ, ih, bind_ok, inner, bind_ok, bitsToUsize_eq _ (by simpa using hb), bind_ok, List.range_succ,
      List.map_append]
    rfl

/-- Exactly the requested number of challenges, all below `2^bits`. -/
theorem C41_in_range (draw : Nat → Nat) (n bits : Nat) (hb : bits < 64) :
    ∃ cs, spaceChallenges draw n bits = .ok cs ∧ cs.length = n ∧ ∀ c ∈ cs, c < 2 ^ bits := by
  refine ⟨_, spaceChallenges_eq draw n bits hb, by simp, ?_⟩
  intro c hc
  obtain ⟨i, -, rfl⟩ := List.mem_map.mp hc
  have := bitsVal_lt ((List.range bits).map (fun k => draw (i * bits + k) % 2 == 1))
  simpa using this

/-- Nothing is filtered: every list of values below `2^bits`, in particular with repetitions, is
the outcome of some draws. -/
theorem C41_every_list_possible (bits : Nat) (h0 : 0 < bits) (hb : bits < 64) (target : List Nat)
    (ht : ∀ c ∈ target, c < 2 ^ bits) :
    ∃ draw : Nat → Nat, (∀ j, draw j < 2) ∧ spaceChallenges draw target.length bits = .ok target := by
  let bit : Nat → Bool := fun j => (bitsOf bits (target[j / bits]?.getD 0))[j % bits]?.getD false
  refine ⟨fun j => if bit j then 1 else 0, fun j => by show (if bit j then 1 else 0) < 2; split <;> omega, ?_⟩
  rw [spaceChallenges_eq _ _ _ hb]
  congr 1
  apply List.ext_getElem (by simp)
  intro i h1 h2
  simp only [List.getElem_map, List.getElem_range]
  have e : ((List.range bits).map (fun k => (if bit (i * bits + k) then 1 else 0) % 2 == 1)) = bitsOf bits target[i] := by
    apply List.ext_getElem (by simp)
    intro k hk1 hk2
    have hk : k < bits := by simpa using hk1
    simp only [List.getElem_map, List.getElem_range]
    have hb' : bit (i * bits + k) = (bitsOf bits target[i])[k] := by
      simp only [bit]
      have d1 : (i * bits + k) / bits = i := by
        rw [Nat.mul_comm, Nat.mul_add_div h0, Nat.div_eq_of_lt hk, Nat.add_zero]
      have d2 : (i * bits + k) % bits = k := by
        rw [Nat.mul_comm, Nat.mul_add_mod, Nat.mod_eq_of_lt hk]
      rw [d1, d2, List.getElem?_eq_getElem h2, Option.getD_some, List.getElem?_eq_getElem hk2, Option.getD_some]
    rw [hb']
    cases (bitsOf bits target[i])[k] <;> rfl
  rw [e, bitsVal_bitsOf, Nat.mod_eq_of_lt (ht _ (List.getElem_mem h2))]

/-- From 64 bits on the first challenge already panics. -/
theorem C41_too_many_bits (draw : Nat → Nat) (n bits : Nat) (hn : 0 < n) (hb : 64 ≤ bits) :
    spaceChallenges draw n bits = .error .overflow := by
  have inner : ∀ b, ∃ l : List Bool, forUp b (fun k c => do
      let x ← at! [false, true] (genRange (draw (0 * bits + k)) 0 2)
      pure (c ++ [x])) ([] : List Bool) = .ok l ∧ l.length = b := by
    intro b
    induction b with
    | zero => exact ⟨[], rfl, rfl⟩
    | succ b ih =>
      obtain ⟨l, e, hl⟩ := ih
      rw [forUp_succ, e, bind_ok, at!_of_lt (by have := Nat.mod_lt (draw (0 * bits + b)) (show 0 < 2 by omega); simpa [genRange] using this)]
      exact ⟨_, rfl, by simp [hl]⟩
  obtain ⟨l, e, hl⟩ := inner bits
  unfold spaceChallenges
  refine forUp_error_of (k := 0) (t := []) hn rfl ?_
  rw [e, bind_ok, bitsToUsize_overflow l (by omega)]
  rfl

example : spaceChallenges (fun j => j / 3 % 2) 4 3 = .ok [0, 7, 0, 7] := by decide +kernel

/-! ### C48: the verdict -/

theorem verifyInputs_eq {q : Nat} (key m : ZMod q) (challenges idxs : List Nat) (xHash : ZMod q)
    (h : ∀ i ∈ idxs, i < challenges.length) :
    verifyInputs key m challenges idxs xHash =
      .ok ([key, m] ++ idxs.map (fun i => ((challenges[i]?.getD 0 : Nat) : ZMod q)) ++ [xHash]) := by
  unfold verifyInputs
  have gen : ∀ (idxs : List Nat) (acc : List (ZMod q)), (∀ i ∈ idxs, i < challenges.length) →
      forEach idxs (fun i acc => do
        let yn ← at! challenges i
        pure (acc ++ [(yn : ZMod q)])) acc =
      .ok (acc ++ idxs.map (fun i => ((challenges[i]?.getD 0 : Nat) : ZMod q))) := by
    intro idxs
    induction idxs with
    | nil => intro acc _; simp [forEach]
    | cons i idxs ih =>
      intro acc hi
      have hlt := hi i (by simp)
      rw [forEach_cons, at!_of_lt hlt, bind_ok]
      show forEach idxs _ (acc ++ [((challenges[i] : Nat) : ZMod q)]) = _
      rw [ih _ (fun j hj => hi j (by simp [hj]))]
      simp [List.getElem?_eq_getElem hlt]
  rw [gen idxs _ h, bind_ok]
  rfl

/-- The verifier's assertion holds whenever the number of responses fits the verifying key and
the pairing computation does not fail — whether or not the proof is valid; in particular the
outcome `Ok(false)` of an invalid proof is accepted. -/
theorem C48_accepts_iff {q : Nat} (gammaLen : Nat) (pairing : List (ZMod q) → Option Bool) (key m : ZMod q)
    (challenges idxs : List Nat) (xHash : ZMod q) (h : ∀ i ∈ idxs, i < challenges.length) :
    spaceVerify gammaLen pairing key m challenges idxs xHash = .ok () ↔
      idxs.length + 4 = gammaLen ∧ ∃ b, pairing ([key, m] ++
        idxs.map (fun i => ((challenges[i]?.getD 0 : Nat) : ZMod q)) ++ [xHash]) = some b := by
  unfold spaceVerify
  rw [verifyInputs_eq _ _ _ _ _ h, bind_ok]
  set inputs := [key, m] ++ idxs.map (fun i => ((challenges[i]?.getD 0 : Nat) : ZMod q)) ++ [xHash] with hin
  have hl : inputs.length = idxs.length + 3 := by simp [hin]
  unfold verifyProof
  by_cases hg : inputs.length + 1 ≠ gammaLen
  · rw [if_pos hg]
    simp only [reduceCtorEq, false_iff, not_and]
    intro h; omega
  · rw [if_neg hg]
    cases hp : pairing inputs with
    | none => simp
    | some b =>
      simp only [Option.some.injEq, exists_eq', and_true]
      constructor
      · intro _; omega
      · intro _; rfl

/-- An invalid proof is accepted exactly like a valid one. -/
theorem C48_invalid_proof_accepted {q : Nat} (gammaLen : Nat) (key m : ZMod q) (challenges idxs : List Nat)
    (xHash : ZMod q) (h : ∀ i ∈ idxs, i < challenges.length) (hg : idxs.length + 4 = gammaLen) :
    spaceVerify gammaLen (fun _ => some false) key m challenges idxs xHash = .ok () :=
  (C48_accepts_iff _ _ _ _ _ _ _ h).mpr ⟨hg, false, rfl⟩

example : spaceVerify (q := 103) 6 (fun _ => some false) 1 2 [5, 6, 7] [0, 2] 9 = .ok () ∧
    spaceVerify (q := 103) 6 (fun _ => some true) 1 2 [5, 6, 7] [0] 9 = .error .assertion := by decide +kernel

end PoS
