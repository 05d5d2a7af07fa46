import Verif.Proofs.SpaceStop

/-
C118: `mark_space` on any file, stopped at any point, and run again.
-/

namespace PoS

set_option linter.unusedSectionVars false

variable {q : Nat}

theorem mark_any (key m : ZMod q) (cs : List (ZMod q)) (hcs : cs.length = 10) (n : Nat) (hn : 0 < n) (h64 : n < 64)
    (slot : Nat → Nat) (hslot : ∀ x : Nat, ∃ Y, mimc5Df ((x : ZMod q) + key) m cs = .ok Y ∧ slot x = Y.val % 2 ^ n)
    (file : Bytes) (hlen : (n + 1) * 2 ^ n ≤ 8 * file.length) :
    ∃ out seen, markSpace file key m cs n = .ok out ∧ markSpaceSeen file key m cs n = .ok seen ∧
      file ∈ seen ∧ out ∈ seen ∧ out.length = file.length ∧
      (∀ i, (leNat out).testBit i = tableBit slot n (2 ^ n) (fun i => (leNat file).testBit i) i) ∧
      (∀ g ∈ seen, ∃ k < 2 ^ n, ∃ b, Midway slot n file g k b) ∧
      ∀ k < 2 ^ n, ∀ b, ∃ g ∈ seen, Midway slot n file g k b := by
  have hs : ∀ x, slotOf key m cs n x = .ok (slot x) := by
    intro x
    obtain ⟨Y, h1, h2⟩ := hslot x
    obtain ⟨Z, g1, g2⟩ := slotOf_eq key m cs hcs n x h64
    rw [h1] at g1
    injection g1 with g1
    rw [g2, h2, g1]
  refine markSpace_any hn h64 hs (fun x => ?_) hlen
  obtain ⟨Y, -, h2⟩ := hslot x
  rw [h2]
  exact Nat.mod_lt _ (Nat.two_pow_pos n)

/-- `mark_space` on any file that is long enough for the table, whatever it contains.  Read as one
little-endian number, the file is a sequence of cells of `n + 1` bits.  Afterwards the cell of every
input below `2^n` holds the last input that belongs to it, with the flag; every other cell keeps what
it held, flag included, and so does everything behind the table. -/
theorem C118_mark (key m : ZMod q) (cs : List (ZMod q)) (hcs : cs.length = 10) (n : Nat) (hn : 0 < n) (h64 : n < 64)
    (slot : Nat → Nat) (hslot : ∀ x : Nat, ∃ Y, mimc5Df ((x : ZMod q) + key) m cs = .ok Y ∧ slot x = Y.val % 2 ^ n)
    (file : Bytes) (hlen : (n + 1) * 2 ^ n ≤ 8 * file.length) :
    ∃ out, markSpace file key m cs n = .ok out ∧ out.length = file.length ∧
      ∀ i, (leNat out).testBit i = tableBit slot n (2 ^ n) (fun i => (leNat file).testBit i) i := by
  obtain ⟨out, seen, h1, -, -, -, h2, h3, -, -⟩ := mark_any key m cs hcs n hn h64 slot hslot file hlen
  exact ⟨out, h1, h2, h3⟩

/-- A `mark_space` that is stopped leaves exactly one of the following: the completed entries of the
inputs below some `k`, and of the entry of `k` what lies in the first `b` bytes of the file; everything
else as it was.  All of these contents occur, the one found at the start and the final one among them. -/
theorem C118_stopped (key m : ZMod q) (cs : List (ZMod q)) (hcs : cs.length = 10) (n : Nat) (hn : 0 < n) (h64 : n < 64)
    (slot : Nat → Nat) (hslot : ∀ x : Nat, ∃ Y, mimc5Df ((x : ZMod q) + key) m cs = .ok Y ∧ slot x = Y.val % 2 ^ n)
    (file : Bytes) (hlen : (n + 1) * 2 ^ n ≤ 8 * file.length) :
    ∃ out seen, markSpace file key m cs n = .ok out ∧ markSpaceSeen file key m cs n = .ok seen ∧
      file ∈ seen ∧ out ∈ seen ∧
      ∀ g, g ∈ seen ↔ g.length = file.length ∧ ∃ k < 2 ^ n, ∃ b, ∀ i, (leNat g).testBit i =
        if i / (n + 1) = slot k ∧ i < 8 * b then (k + 2 ^ n).testBit (i % (n + 1))
        else tableBit slot n k (fun i => (leNat file).testBit i) i := by
  obtain ⟨out, seen, h1, h2, h3, h4, -, -, h5, h6⟩ := mark_any key m cs hcs n hn h64 slot hslot file hlen
  refine ⟨out, seen, h1, h2, h3, h4, fun g => ⟨fun hg => ?_, ?_⟩⟩
  · obtain ⟨k, hk, b, hl, hb⟩ := h5 g hg
    exact ⟨hl, k, hk, b, hb⟩
  · rintro ⟨hl, k, hk, b, hb⟩
    obtain ⟨g', m1, m2, m3⟩ := h6 k hk b
    rw [file_ext (hl.trans m2.symm) (fun i => (hb i).trans (m3 i).symm)]
    exact m1

/-- Running `mark_space` again, on what a stopped (or a finished) run left, gives the result of the
undisturbed run. -/
theorem C118_again (key m : ZMod q) (cs : List (ZMod q)) (hcs : cs.length = 10) (n : Nat) (hn : 0 < n) (h64 : n < 64)
    (file : Bytes) (hlen : (n + 1) * 2 ^ n ≤ 8 * file.length) :
    ∃ out seen, markSpace file key m cs n = .ok out ∧ markSpaceSeen file key m cs n = .ok seen ∧ out ∈ seen ∧
      ∀ g ∈ seen, markSpace g key m cs n = .ok out := by
  choose Y hY _ using fun x => slotOf_eq key m cs hcs n x h64
  have hslot : ∀ x : Nat, ∃ Z, mimc5Df ((x : ZMod q) + key) m cs = .ok Z ∧ (Y x).val % 2 ^ n = Z.val % 2 ^ n :=
    fun x => ⟨Y x, hY x, rfl⟩
  obtain ⟨out, seen, h1, h2, -, h4, hlo, hout, h5, -⟩ :=
    mark_any key m cs hcs n hn h64 (fun x => (Y x).val % 2 ^ n) hslot file hlen
  refine ⟨out, seen, h1, h2, h4, fun g hg => ?_⟩
  obtain ⟨k, hk, e, hl, hb⟩ := h5 g hg
  obtain ⟨out2, -, g1, -, -, -, g2, g3, -, -⟩ :=
    mark_any key m cs hcs n hn h64 (fun x => (Y x).val % 2 ^ n) hslot g (by omega)
  rw [g1]
  congr 1
  refine file_ext (by omega) fun i => ?_
  rw [g3 i, hout i]
  unfold tableBit
  cases hc : lastInput (fun x => (Y x).val % 2 ^ n) (i / (n + 1)) (2 ^ n) with
  | some x => rfl
  | none =>
    have hno := lastInput_none hc
    simp only
    rw [hb i, if_neg (fun h => hno k hk h.1.symm)]
    unfold tableBit
    rw [lastInput_none_of (fun x hx => hno x (by omega))]

/-- What a stopped `mark_space` leaves of a table without flags (a prepared one): a flagged cell `c`
holds the low `w` bits of one input that belongs to `c` and the high bits of another one, or of the
same.  So a cell that belongs to one input only is right as soon as it is flagged. -/
theorem C118_flagged (key m : ZMod q) (cs : List (ZMod q)) (hcs : cs.length = 10) (n : Nat) (hn : 0 < n) (h64 : n < 64)
    (slot : Nat → Nat) (hslot : ∀ x : Nat, ∃ Y, mimc5Df ((x : ZMod q) + key) m cs = .ok Y ∧ slot x = Y.val % 2 ^ n)
    (file : Bytes) (hlen : (n + 1) * 2 ^ n ≤ 8 * file.length)
    (hclear : ∀ c < 2 ^ n, (leNat file).testBit ((n + 1) * c + n) = false)
    (seen : List Bytes) (hseen : markSpaceSeen file key m cs n = .ok seen) (g : Bytes) (hg : g ∈ seen) (c : Nat)
    (hc : c < 2 ^ n) (hflag : (leNat g).testBit ((n + 1) * c + n) = true) :
    ∃ x < 2 ^ n, ∃ x' < 2 ^ n, slot x = c ∧ slot x' = c ∧
      ∃ w, leNat g / 2 ^ ((n + 1) * c) % 2 ^ n = 2 ^ w * (x' / 2 ^ w) + x % 2 ^ w := by
  obtain ⟨out, seen', -, h2, -, -, -, -, h5, -⟩ := mark_any key m cs hcs n hn h64 slot hslot file hlen
  rw [hseen] at h2
  injection h2 with h2
  subst h2
  obtain ⟨k, hk, b, hl, hb⟩ := h5 g hg
  obtain ⟨e, he⟩ : ∃ e, e = 8 * b := ⟨_, rfl⟩
  rw [← he] at hb
  have hdiv : ∀ j, j < n + 1 → ((n + 1) * c + j) / (n + 1) = c := fun j hj => by
    rw [Nat.mul_add_div (by omega), Nat.div_eq_of_lt hj, Nat.add_zero]
  have hmod : ∀ j, j < n + 1 → ((n + 1) * c + j) % (n + 1) = j := fun j hj => by
    rw [Nat.mul_add_mod, Nat.mod_eq_of_lt hj]
  have hcell : ∀ j < n + 1, (leNat g).testBit ((n + 1) * c + j) =
      if c = slot k ∧ (n + 1) * c + j < e then (k + 2 ^ n).testBit j
      else match lastInput slot c k with
        | some x => (x + 2 ^ n).testBit j
        | none => (leNat file).testBit ((n + 1) * c + j) := by
    intro j hj
    rw [hb, hdiv j hj, hmod j hj]
    unfold tableBit
    rw [hdiv j hj, hmod j hj]
    rfl
  have hlow : ∀ x j, j < n → (x + 2 ^ n).testBit j = x.testBit j := fun x j hj => by
    rw [Nat.add_comm, Nat.testBit_two_pow_add_gt hj]
  -- from the bits of the cell to its value
  have hval : ∀ x x' w, x < 2 ^ n → x' < 2 ^ n →
      (∀ j < n, (leNat g).testBit ((n + 1) * c + j) = if j < w then x.testBit j else x'.testBit j) →
      leNat g / 2 ^ ((n + 1) * c) % 2 ^ n = 2 ^ w * (x' / 2 ^ w) + x % 2 ^ w := by
    intro x x' w hx hx' hbits
    apply Nat.eq_of_testBit_eq
    intro j
    rw [Nat.testBit_two_pow_mul_add _ (Nat.mod_lt _ (Nat.two_pow_pos w)), Nat.testBit_mod_two_pow,
      Nat.testBit_div_two_pow, Nat.testBit_mod_two_pow, Nat.testBit_div_two_pow]
    by_cases hj : j < n
    · rw [decide_eq_true hj, Bool.true_and, Nat.add_comm j, hbits j hj]
      by_cases hw : j < w
      · rw [if_pos hw, if_pos hw, decide_eq_true hw, Bool.true_and]
      · rw [if_neg hw, if_neg hw, show j - w + w = j by omega]
    · have hp : 2 ^ n ≤ 2 ^ j := Nat.pow_le_pow_right (by norm_num) (by omega)
      rw [decide_eq_false hj, Bool.false_and]
      by_cases hw : j < w
      · rw [if_pos hw, Nat.testBit_lt_two_pow (lt_of_lt_of_le hx hp), Bool.and_false]
      · rw [if_neg hw, show j - w + w = j by omega, Nat.testBit_lt_two_pow (lt_of_lt_of_le hx' hp)]
  have hfl := hcell n (by omega)
  rw [hflag] at hfl
  by_cases hnew : c = slot k ∧ (n + 1) * c + n < e
  · -- the entry of `k` is complete
    refine ⟨k, hk, k, hk, hnew.1.symm, hnew.1.symm, 0, hval k k 0 hk hk ?_⟩
    intro j hj
    rw [hcell j (by omega), if_pos ⟨hnew.1, by omega⟩, hlow k j hj, if_neg (by omega)]
  · rw [if_neg hnew] at hfl
    cases hlast : lastInput slot c k with
    | none =>
      rw [hlast] at hfl
      simp only at hfl
      rw [hclear c hc] at hfl
      cases hfl
    | some x' =>
      obtain ⟨l1, l2, -⟩ := lastInput_some hlast
      by_cases hck : c = slot k
      · refine ⟨k, hk, x', by omega, hck.symm, l2, e - (n + 1) * c, hval k x' _ hk (by omega) ?_⟩
        intro j hj
        rw [hcell j (by omega), hlast]
        by_cases he : (n + 1) * c + j < e
        · rw [if_pos ⟨hck, he⟩, if_pos (by omega), hlow k j hj]
        · rw [if_neg (fun h => he h.2), if_neg (by omega)]
          exact hlow x' j hj
      · refine ⟨x', by omega, x', by omega, l2, l2, 0, hval x' x' 0 (by omega) (by omega) ?_⟩
        intro j hj
        rw [hcell j (by omega), hlast, if_neg (fun h => hck h.1), if_neg (by omega)]
        exact hlow x' j hj

/-- The two halves can belong together badly: there are a key and constants over the shipped field, a
prepared space of four bits and a content left by a stopped `mark_space` from which `response_1` answers
challenge 6 with the input 8, although 8 belongs to cell 9. -/
theorem C118_torn_wrong : ∃ (key m : ZMod blsR) (cs hashCs : List (ZMod blsR)) (file : Bytes) (seen : List Bytes)
    (g : Bytes) (h : ZMod blsR),
    cs.length = 10 ∧ prepareSpace 4 = .ok file ∧ markSpaceSeen file key m cs 4 = .ok seen ∧ g ∈ seen ∧
    response1 g [6] key hashCs 4 1 = .ok ([8], [0], h) ∧ slotOf key m cs 4 8 = .ok 9 := by
  have hseen : (markSpaceSeen (zeros 10) (3 : ZMod blsR) 7 [1, 2, 3, 4, 5, 6, 7, 8, 9, 10] 4).toOption.map
      (fun seen => seen[17]?) = some (some [0, 0, 0, 50, 150, 23, 211, 9, 52, 176]) := by decide +kernel
  have hr : (match response1 [0, 0, 0, 50, 150, 23, 211, 9, 52, 176] [6] (3 : ZMod blsR)
        [1, 2, 3, 4, 5, 6, 7, 8, 9, 10] 4 1 with
      | .ok (xs, idxs, _) => decide (xs = [8] ∧ idxs = [0])
      | .error _ => false) = true := by decide +kernel
  cases h1 : markSpaceSeen (zeros 10) (3 : ZMod blsR) 7 [1, 2, 3, 4, 5, 6, 7, 8, 9, 10] 4 with
  | error e => rw [h1] at hseen; cases hseen
  | ok seen =>
    rw [h1] at hseen
    have h2 : seen[17]? = some [0, 0, 0, 50, 150, 23, 211, 9, 52, 176] := Option.some.inj hseen
    cases hresp : response1 [0, 0, 0, 50, 150, 23, 211, 9, 52, 176] [6] (3 : ZMod blsR)
        [1, 2, 3, 4, 5, 6, 7, 8, 9, 10] 4 1 with
    | error e => rw [hresp] at hr; simp at hr
    | ok o =>
      obtain ⟨xs, idxs, h⟩ := o
      rw [hresp] at hr
      simp only [decide_eq_true_eq] at hr
      obtain ⟨rfl, rfl⟩ := hr
      exact ⟨3, 7, [1, 2, 3, 4, 5, 6, 7, 8, 9, 10], [1, 2, 3, 4, 5, 6, 7, 8, 9, 10], zeros 10, seen, _, h, rfl,
        by decide +kernel, h1, List.mem_of_getElem? h2, hresp, by decide +kernel⟩

/-- Without preparing the space again, `mark_space` for another key leaves entries of the old key
behind: cell 7 keeps the input 2 of key 3, although under key 10 no input belongs to it. -/
theorem C118_stale : ∃ (key key' m : ZMod blsR) (cs hashCs : List (ZMod blsR)) (file file' : Bytes) (h : ZMod blsR),
    cs.length = 10 ∧ (prepareSpace 4 >>= fun f => markSpace f key m cs 4) = .ok file ∧
    markSpace file key' m cs 4 = .ok file' ∧ response1 file' [7] key' hashCs 4 1 = .ok ([2], [0], h) ∧
    ∀ z < 16, slotOf key' m cs 4 z ≠ .ok 7 := by
  have hm : (prepareSpace 4 >>= fun f => markSpace f (3 : ZMod blsR) 7 [1, 2, 3, 4, 5, 6, 7, 8, 9, 10] 4) =
      .ok [0, 0, 0, 62, 151, 23, 211, 233, 53, 176] := by decide +kernel
  have hm' : (markSpace [0, 0, 0, 62, 151, 23, 211, 233, 53, 176] (10 : ZMod blsR) 7 [1, 2, 3, 4, 5, 6, 7, 8, 9, 10] 4) =
      .ok [0, 128, 15, 240, 150, 62, 82, 221, 39, 224] := by decide +kernel
  have hr : (match response1 [0, 128, 15, 240, 150, 62, 82, 221, 39, 224] [7] (10 : ZMod blsR) [1, 2, 3, 4, 5, 6, 7, 8, 9, 10] 4 1 with
      | .ok (xs, idxs, _) => decide (xs = [2] ∧ idxs = [0])
      | .error _ => false) = true := by decide +kernel
  cases hresp : response1 [0, 128, 15, 240, 150, 62, 82, 221, 39, 224] [7] (10 : ZMod blsR) [1, 2, 3, 4, 5, 6, 7, 8, 9, 10] 4 1 with
  | error e => rw [hresp] at hr; simp at hr
  | ok o =>
    obtain ⟨xs, idxs, h⟩ := o
    rw [hresp] at hr
    simp only [decide_eq_true_eq] at hr
    obtain ⟨rfl, rfl⟩ := hr
    exact ⟨3, 10, 7, [1, 2, 3, 4, 5, 6, 7, 8, 9, 10], [1, 2, 3, 4, 5, 6, 7, 8, 9, 10], _, _, h, rfl, hm, hm', hresp,
      by decide +kernel⟩

/-- The hypotheses are met by the prepared space of four bits. -/
example : ∃ file, prepareSpace 4 = .ok file ∧ (4 + 1) * 2 ^ 4 ≤ 8 * file.length ∧
    (∀ c < 2 ^ 4, (leNat file).testBit ((4 + 1) * c + 4) = false) ∧
    (markSpaceSeen file (3 : ZMod blsR) 7 [1, 2, 3, 4, 5, 6, 7, 8, 9, 10] 4).toOption.map List.length = some 23 :=
  ⟨zeros 10, by decide +kernel, by decide +kernel, by decide +kernel, by decide +kernel⟩

end PoS
