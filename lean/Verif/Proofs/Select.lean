import Verif.Proofs.Depend
import Verif.Spec.Select

/-
The hash-chosen dependency lists, exactly.
-/

namespace PoS

theorem prefixChain_length {H : Bytes → Bytes} (hH : ∀ x, (H x).length = 32) (data : Bytes) (j : Nat) :
    (prefixChain H data j).length = 16 := by
  cases j <;> simp [prefixChain, hH]

theorem hash16_eq {H : Bytes → Bytes} (hH : ∀ x, (H x).length = 32) (d : Bytes) :
    hash16 H d = .ok ((H d).take 16) := by
  unfold hash16 slice!
  rw [if_pos (by rw [hH]; omega)]
  simp

/-- The number read at a position of one 16-byte prefix. -/
def readNum (hash : Bytes) (step i : Nat) : Nat :=
  if step = 1 then (hash.getD i 0).toNat
  else 256 + (hash.getD i 0).toNat + (hash.getD (i + 1) 0).toNat

theorem dataIdx_eq {hash : Bytes} {step i : Nat} (hs : step = 1 ∨ step = 2) (h : i + step ≤ hash.length) :
    dataIdx hash step i = .ok (readNum hash step i) := by
  unfold dataIdx readNum
  rcases hs with rfl | rfl
  · rw [if_pos rfl, forUp_succ]
    show (Except.ok 0 >>= _) = _
    rw [bind_ok, at!_of_lt (by omega), bind_ok]
    simp [List.getD_eq_getElem?_getD, List.getElem?_eq_getElem (show i < hash.length by omega)]
  · rw [if_neg (by omega), forUp_succ, forUp_succ]
    show ((Except.ok 0 >>= _) >>= _) = _
    rw [bind_ok, at!_of_lt (by omega), bind_ok]
    show (Except.ok _ >>= _) = _
    rw [bind_ok, at!_of_lt (by omega), bind_ok]
    simp [List.getD_eq_getElem?_getD, List.getElem?_eq_getElem (show i < hash.length by omega),
      List.getElem?_eq_getElem (show i + 1 < hash.length by omega)]
    omega

theorem longScan_eq {hash : Bytes} {step index count : Nat} (hs : step = 1 ∨ step = 2) (hi : 0 < index)
    (ps : List Nat) (hps : ∀ i ∈ ps, i + step ≤ hash.length) (acc : List Nat) :
    longScan hash step index count ps (acc, acc.length) =
      .ok (acc ++ (ps.map (fun i => readNum hash step i % index)).take (count - acc.length),
        (acc ++ (ps.map (fun i => readNum hash step i % index)).take (count - acc.length)).length) := by
  induction ps generalizing acc with
  | nil => simp [longScan]
  | cons i ps ih =>
    unfold longScan
    by_cases hc : acc.length < count
    · rw [if_pos hc, dataIdx_eq hs (hps i (by simp)), bind_ok]
      have hm : mod! (readNum hash step i) index = .ok (readNum hash step i % index) := by
        unfold mod!; rw [if_neg (by omega)]
      rw [hm, bind_ok]
      have := ih (fun j hj => hps j (by simp [hj])) (acc ++ [readNum hash step i % index])
      rw [List.length_append] at this
      simp only [List.length_singleton] at this
      rw [this, List.map_cons]
      obtain ⟨k, hk⟩ : ∃ k, count - acc.length = k + 1 := ⟨count - acc.length - 1, by omega⟩
      rw [hk, List.take_succ_cons, show count - (acc.length + 1) = k by omega]
      simp
    · rw [if_neg hc, show count - acc.length = 0 by omega]
      simp

theorem shortScan_eq {hash : Bytes} {step num index count : Nat} (hs : step = 1 ∨ step = 2) (hi : 0 < num)
    (ps : List Nat) (hps : ∀ i ∈ ps, i + step ≤ hash.length) (acc : List Nat) :
    shortScan hash step num index count ps (acc, acc.length) =
      .ok (acc ++ ((ps.map (fun i => readNum hash step i % num)).filter (· ≠ index)).take (count - acc.length),
        (acc ++ ((ps.map (fun i => readNum hash step i % num)).filter (· ≠ index)).take
          (count - acc.length)).length) := by
  induction ps generalizing acc with
  | nil => simp [shortScan]
  | cons i ps ih =>
    unfold shortScan
    by_cases hc : acc.length < count
    · rw [if_pos hc, dataIdx_eq hs (hps i (by simp)), bind_ok]
      have hm : mod! (readNum hash step i) num = .ok (readNum hash step i % num) := by
        unfold mod!; rw [if_neg (by omega)]
      rw [hm, bind_ok]
      by_cases hne : readNum hash step i % num ≠ index
      · rw [if_pos hne]
        have := ih (fun j hj => hps j (by simp [hj])) (acc ++ [readNum hash step i % num])
        rw [List.length_append] at this
        simp only [List.length_singleton] at this
        rw [this, List.map_cons, List.filter_cons, if_pos (by simpa using hne)]
        obtain ⟨k, hk⟩ : ∃ k, count - acc.length = k + 1 := ⟨count - acc.length - 1, by omega⟩
        rw [hk, List.take_succ_cons, show count - (acc.length + 1) = k by omega]
        simp
      · rw [if_neg hne, ih (fun j hj => hps j (by simp [hj])), List.map_cons, List.filter_cons,
          if_neg (by simpa using hne)]
    · rw [if_neg hc, show count - acc.length = 0 by omega]
      simp

/-- The numbers of the first `m` prefixes of the chain, in order. -/
def chainNums (H : Bytes → Bytes) (data : Bytes) (step j m : Nat) : List Nat :=
  (List.range m).flatMap (fun k => (positions step).map (fun i => readNum (prefixChain H data (j + k)) step i))

theorem chainNums_succ (H : Bytes → Bytes) (data : Bytes) (step j m : Nat) :
    chainNums H data step j (m + 1) =
      (positions step).map (fun i => readNum (prefixChain H data j) step i) ++ chainNums H data step (j + 1) m := by
  unfold chainNums
  rw [List.range_succ_eq_map, List.flatMap_cons, List.flatMap_map]
  congr 1
  apply List.flatMap_congr
  intro k _
  show _ = List.map (fun i => readNum (prefixChain H data (j + 1 + k)) step i) _
  rw [show j + k.succ = j + 1 + k by omega]

theorem take_append_take {α : Type} (a b : List α) (n : Nat) :
    a.take n ++ b.take (n - (a.take n).length) = (a ++ b).take n := by
  rw [List.take_append, List.length_take]
  rcases Nat.le_total n a.length with h | h
  · rw [Nat.min_eq_left h]; simp [h]
  · rw [Nat.min_eq_right h]

theorem longRehash_eq {H : Bytes → Bytes} (hH : ∀ x, (H x).length = 32) {step index count : Nat}
    (hs : step = 1 ∨ step = 2) (hi : 0 < index) (data : Bytes) (r j : Nat) (acc : List Nat) :
    longRehash H step index count r (prefixChain H data j) (acc, acc.length) =
      .ok (acc ++ ((chainNums H data step (j + 1) r).map (· % index)).take (count - acc.length),
        (acc ++ ((chainNums H data step (j + 1) r).map (· % index)).take (count - acc.length)).length) := by
  induction r generalizing j acc with
  | zero => simp [longRehash, chainNums]
  | succ r ih =>
    unfold longRehash
    rw [hash16_eq hH, bind_ok]
    have hp : ∀ i ∈ positions step, i + step ≤ (prefixChain H data (j + 1)).length := by
      rw [prefixChain_length hH]; exact positions_small hs
    rw [show (H (prefixChain H data j)).take 16 = prefixChain H data (j + 1) from rfl,
      longScan_eq hs hi _ hp, bind_ok]
    rw [chainNums_succ, List.map_append, List.map_map]
    simp only [Function.comp_def]
    generalize List.map (fun i => readNum (prefixChain H data (j + 1)) step i % index) (positions step) = a
    by_cases hfull : (acc ++ a.take (count - acc.length)).length ≥ count
    · rw [if_pos hfull]
      have : (a ++ (chainNums H data step (j + 1 + 1) r).map (· % index)).take (count - acc.length) =
          a.take (count - acc.length) := by
        rw [List.take_append_of_le_length]
        rw [List.length_append, List.length_take] at hfull
        omega
      rw [this]; rfl
    · rw [if_neg hfull, ih]
      have : acc ++ a.take (count - acc.length) ++
          ((chainNums H data step (j + 1 + 1) r).map (· % index)).take
            (count - (acc ++ a.take (count - acc.length)).length) =
          acc ++ (a ++ (chainNums H data step (j + 1 + 1) r).map (· % index)).take (count - acc.length) := by
        rw [List.append_assoc, List.length_append, ← Nat.sub_sub, take_append_take]
      rw [this]

theorem shortRehash_eq {H : Bytes → Bytes} (hH : ∀ x, (H x).length = 32) {step num index count : Nat}
    (hs : step = 1 ∨ step = 2) (hi : 0 < num) (data : Bytes) (r j : Nat) (acc : List Nat) :
    shortRehash H step num index count r (prefixChain H data j) (acc, acc.length) =
      .ok (acc ++ (((chainNums H data step (j + 1) r).map (· % num)).filter (· ≠ index)).take (count - acc.length),
        (acc ++ (((chainNums H data step (j + 1) r).map (· % num)).filter (· ≠ index)).take
          (count - acc.length)).length) := by
  induction r generalizing j acc with
  | zero => simp [shortRehash, chainNums]
  | succ r ih =>
    unfold shortRehash
    rw [hash16_eq hH, bind_ok]
    have hp : ∀ i ∈ positions step, i + step ≤ (prefixChain H data (j + 1)).length := by
      rw [prefixChain_length hH]; exact positions_small hs
    rw [show (H (prefixChain H data j)).take 16 = prefixChain H data (j + 1) from rfl,
      shortScan_eq hs hi _ hp, bind_ok]
    rw [chainNums_succ, List.map_append, List.filter_append, List.map_map]
    simp only [Function.comp_def]
    generalize List.filter (fun x => decide (x ≠ index)) (List.map
      (fun i => readNum (prefixChain H data (j + 1)) step i % num) (positions step)) = a
    generalize hb : List.filter (fun x => decide (x ≠ index))
      (List.map (fun x => x % num) (chainNums H data step (j + 1 + 1) r)) = b
    by_cases hfull : (acc ++ a.take (count - acc.length)).length ≥ count
    · rw [if_pos hfull]
      have : (a ++ b).take (count - acc.length) = a.take (count - acc.length) := by
        rw [List.take_append_of_le_length]
        rw [List.length_append, List.length_take] at hfull
        omega
      rw [this]; rfl
    · rw [if_neg hfull, ih, hb]
      have : acc ++ a.take (count - acc.length) ++
          b.take (count - (acc ++ a.take (count - acc.length)).length) =
          acc ++ (a ++ b).take (count - acc.length) := by
        rw [List.append_assoc, List.length_append, ← Nat.sub_sub, take_append_take]
      rw [this]

theorem flatMap_range_blocks {α : Type} (f : Nat → Nat → α) (n m : Nat) (hm : 0 < m) :
    (List.range n).flatMap (fun j => (List.range m).map (f j)) =
      (List.range (n * m)).map (fun i => f (i / m) (i % m)) := by
  induction n with
  | zero => simp
  | succ n ih =>
    rw [List.range_succ, List.flatMap_append, ih, Nat.add_mul, Nat.one_mul, List.range_add, List.map_append]
    congr 1
    simp only [List.flatMap_cons, List.flatMap_nil, List.append_nil, List.map_map]
    apply List.map_congr_left
    intro k hk
    rw [List.mem_range] at hk
    simp only [Function.comp_def]
    rw [Nat.mul_comm n m, Nat.mul_add_div hm, Nat.div_eq_of_lt hk, Nat.add_zero, Nat.mul_add_mod,
      Nat.mod_eq_of_lt hk]

/-- The numbers of the chain are those of the specification. -/
theorem chainNums_eq (H : Bytes → Bytes) (data : Bytes) (num count : Nat) (hnum : num ≤ 65536) :
    chainNums H data (stepOf num) 0 (count / (8 * stepOf num) - 1 + 1) =
      (List.range (available num count)).map (drawn H data num) := by
  unfold chainNums stepOf available drawn
  have h0 : ∀ k, count / k - 1 + 1 = max 1 (count / k) := by
    intro k
    rcases Nat.eq_zero_or_pos (count / k) with h | h
    · rw [h]; rfl
    · omega
  by_cases h : num ≤ 256
  · rw [if_pos (by simpa using h), if_pos h, h0]
    have hp : positions 1 = List.range 16 := by decide
    simp only [hp]
    rw [show 8 * 1 = 8 from rfl, Nat.mul_comm 16]
    rw [flatMap_range_blocks (fun j i => readNum (prefixChain H data (0 + j)) 1 i) _ 16 (by norm_num)]
    apply List.map_congr_left
    intro i _
    rw [if_pos h]
    unfold readNum streamByte
    simp
  · rw [if_neg (by simpa using h), if_pos (by simpa using hnum), if_neg h, if_pos hnum, h0]
    have hp : positions 2 = (List.range 8).map (· * 2) := by decide
    simp only [hp, List.map_map]
    rw [show 8 * 2 = 16 from rfl, Nat.mul_comm 8]
    have := flatMap_range_blocks (fun j i => readNum (prefixChain H data (0 + j)) 2 (i * 2))
      (max 1 (count / 16)) 8 (by norm_num)
    simp only [Function.comp_def]
    rw [this]
    apply List.map_congr_left
    intro i _
    rw [if_neg h, if_pos hnum]
    unfold readNum streamByte
    rw [if_neg (by norm_num)]
    rw [Nat.zero_add, show 2 * i / 16 = i / 8 by omega, show (2 * i + 1) / 16 = i / 8 by omega,
      show 2 * i % 16 = i % 8 * 2 by omega, show (2 * i + 1) % 16 = i % 8 * 2 + 1 by omega]

/-- The hash-chosen long list, exactly. -/
theorem longModeRandom_eq_small {H : Bytes → Bytes} (hH : ∀ x, (H x).length = 32) {num index count : Nat}
    (hnum : num ≤ 65536) (hi : 0 < index) (data : Bytes) :
    longModeRandom H num data index count =
      .ok (sortDedup (((List.range (available num count)).map (fun i => drawn H data num i % index)).take count)) := by
  have hs := stepOf_small hnum
  unfold longModeRandom
  rw [if_neg (by omega), hash16_eq hH]
  simp only [bind_ok]
  rw [show (H data).take 16 = prefixChain H data 0 from rfl]
  have h1 := longScan_eq (count := count) hs hi (positions (stepOf num))
    (hash := prefixChain H data 0) (by rw [prefixChain_length hH]; exact positions_small hs) []
  rw [List.length_nil] at h1
  rw [h1, bind_ok, List.nil_append, Nat.sub_zero, longRehash_eq hH hs hi, bind_ok]
  show Except.ok (sortDedup _) = _
  have hm : (positions (stepOf num)).map (fun i => readNum (prefixChain H data 0) (stepOf num) i % index) =
      ((positions (stepOf num)).map (fun i => readNum (prefixChain H data 0) (stepOf num) i)).map (· % index) := by
    rw [List.map_map]; rfl
  rw [take_append_take, hm, ← List.map_append, ← chainNums_succ, chainNums_eq H data num count hnum, List.map_map]
  rfl

/-- The hash-chosen short list, exactly. -/
theorem shortDependRandom_eq_small {H : Bytes → Bytes} (hH : ∀ x, (H x).length = 32) {num index count : Nat}
    (hn0 : 0 < num) (hnum : num ≤ 65536) (data : Bytes) :
    shortDependRandom H num data index count =
      .ok (sortDedup ((((List.range (available num count)).map (fun i => drawn H data num i % num)).filter
        (· ≠ index)).take count)) := by
  have hs := stepOf_small hnum
  unfold shortDependRandom
  rw [hash16_eq hH]
  simp only [bind_ok]
  rw [show (H data).take 16 = prefixChain H data 0 from rfl]
  have h1 := shortScan_eq (count := count) (index := index) hs hn0 (positions (stepOf num))
    (hash := prefixChain H data 0) (by rw [prefixChain_length hH]; exact positions_small hs) []
  rw [List.length_nil] at h1
  rw [h1, bind_ok, List.nil_append, Nat.sub_zero, shortRehash_eq hH hs hn0, bind_ok]
  show Except.ok (sortDedup _) = _
  have hm : (positions (stepOf num)).map (fun i => readNum (prefixChain H data 0) (stepOf num) i % num) =
      ((positions (stepOf num)).map (fun i => readNum (prefixChain H data 0) (stepOf num) i)).map (· % num) := by
    rw [List.map_map]; rfl
  rw [take_append_take, hm, ← List.filter_append, ← List.map_append, ← chainNums_succ,
    chainNums_eq H data num count hnum, List.map_map]
  rfl

/-! ### More than 65536 positions, at most five requested -/

theorem dataIdx_three {hash : Bytes} {i : Nat} (h : i + 3 ≤ hash.length) :
    dataIdx hash 3 i =
      .ok (768 + (hash.getD i 0).toNat + (hash.getD (i + 1) 0).toNat + (hash.getD (i + 2) 0).toNat) := by
  unfold dataIdx
  rw [forUp_succ, forUp_succ, forUp_succ]
  show (((Except.ok 0 >>= _) >>= _) >>= _) = _
  rw [bind_ok, at!_of_lt (by omega), bind_ok]
  show ((Except.ok _ >>= _) >>= _) = _
  rw [bind_ok, at!_of_lt (by omega), bind_ok]
  show (Except.ok _ >>= _) = _
  rw [bind_ok, at!_of_lt (by omega), bind_ok]
  simp [List.getD_eq_getElem?_getD, List.getElem?_eq_getElem (show i < hash.length by omega),
    List.getElem?_eq_getElem (show i + 1 < hash.length by omega),
    List.getElem?_eq_getElem (show i + 2 < hash.length by omega)]
  omega

theorem longScan_three {hash : Bytes} (hh : hash.length = 16) {index count : Nat} (hi : 0 < index) (f : Nat → Nat)
    (hf : ∀ i < 5, dataIdx hash 3 (i * 3) = .ok (f i)) (rest : List Nat) (hc : count ≤ 5) (m j : Nat) (hj : j + m = 5)
    (acc : List Nat) (hacc : acc.length = min j count) :
    longScan hash 3 index count (((List.range' j m).map (· * 3)) ++ rest) (acc, acc.length) =
      .ok (acc ++ ((List.range' j m).map (fun i => f i % index)).take (count - acc.length),
        (acc ++ ((List.range' j m).map (fun i => f i % index)).take (count - acc.length)).length) := by
  induction m generalizing j acc with
  | zero =>
    have : count - acc.length = 0 := by omega
    cases rest with
    | nil => simp [longScan]
    | cons r rs =>
      simp only [List.range'_zero, List.map_nil, List.nil_append, longScan]
      rw [if_neg (by omega)]
      simp
  | succ m ih =>
    rw [List.range'_succ, List.map_cons, List.cons_append]
    unfold longScan
    by_cases hlt : acc.length < count
    · rw [if_pos hlt, hf j (by omega), bind_ok]
      have hm : mod! (f j) index = .ok (f j % index) := by unfold mod!; rw [if_neg (by omega)]
      rw [hm, bind_ok]
      have := ih (j + 1) (by omega) (acc ++ [f j % index]) (by simp; omega)
      rw [List.length_append] at this
      simp only [List.length_singleton] at this
      rw [this, List.map_cons]
      obtain ⟨k, hk⟩ : ∃ k, count - acc.length = k + 1 := ⟨count - acc.length - 1, by omega⟩
      rw [hk, List.take_succ_cons, show count - (acc.length + 1) = k by omega]
      simp
    · rw [if_neg hlt, show count - acc.length = 0 by omega]
      simp

/-- The hash-chosen long list, exactly: up to 65536 positions, or with at most five requested. -/
theorem longModeRandom_eq {H : Bytes → Bytes} (hH : ∀ x, (H x).length = 32) {num index count : Nat}
    (hnum : num ≤ 65536 ∨ count ≤ 5) (hi : 0 < index) (data : Bytes) :
    longModeRandom H num data index count =
      .ok (sortDedup (((List.range (available num count)).map (fun i => drawn H data num i % index)).take count)) := by
  by_cases hle : num ≤ 65536
  · exact longModeRandom_eq_small hH hle hi data
  have hc : count ≤ 5 := by omega
  unfold longModeRandom
  rw [if_neg (by omega), hash16_eq hH]
  simp only [bind_ok]
  rw [stepOf_large (by omega), show (H data).take 16 = prefixChain H data 0 from rfl]
  have hl := prefixChain_length hH data 0
  have hp : positions 3 = (List.range' 0 5).map (· * 3) ++ [15] := by decide
  have h1 := longScan_three (index := index) hl hi (drawn H data num) (fun i h5 => by
    rw [dataIdx_three (by omega)]
    unfold drawn streamByte
    rw [if_neg (by omega), if_neg hle]
    rw [show 3 * i / 16 = 0 by omega, show (3 * i + 1) / 16 = 0 by omega, show (3 * i + 2) / 16 = 0 by omega,
      show 3 * i % 16 = i * 3 by omega, show (3 * i + 1) % 16 = i * 3 + 1 by omega,
      show (3 * i + 2) % 16 = i * 3 + 2 by omega]) [15] hc 5 0 (by omega) [] (by simp)
  rw [List.length_nil] at h1
  rw [hp, h1, bind_ok, show count / (8 * 3) - 1 = 0 by omega]
  show Except.ok (sortDedup _) = _
  unfold available
  rw [if_neg (by omega), if_neg hle, List.nil_append, Nat.sub_zero, List.range_eq_range']

/-- The hash-chosen short list, exactly: up to 65536 positions, or with none requested. -/
theorem shortDependRandom_eq {H : Bytes → Bytes} (hH : ∀ x, (H x).length = 32) {num index count : Nat}
    (hn0 : 0 < num) (hnum : num ≤ 65536 ∨ count = 0) (data : Bytes) :
    shortDependRandom H num data index count =
      .ok (sortDedup ((((List.range (available num count)).map (fun i => drawn H data num i % num)).filter
        (· ≠ index)).take count)) := by
  by_cases hle : num ≤ 65536
  · exact shortDependRandom_eq_small hH hn0 hle data
  obtain rfl : count = 0 := by omega
  unfold shortDependRandom
  rw [hash16_eq hH]
  simp only [bind_ok, Nat.zero_div, List.take_zero]
  have : ∀ ps : List Nat, shortScan ((H data).take 16) (stepOf num) num index 0 ps ([], 0) = .ok ([], 0) := by
    intro ps
    cases ps <;> simp [shortScan]
  rw [this, bind_ok]
  rfl

theorem shortScan_three {hash : Bytes} (hh : hash.length = 16) {num index count : Nat} (hi : 0 < num) (f : Nat → Nat)
    (hf : ∀ i < 5, dataIdx hash 3 (i * 3) = .ok (f i)) (m j : Nat) (hj : j + m = 5) (acc : List Nat) (hacc : acc.length ≤ count) :
    shortScan hash 3 num index count (((List.range' j m).map (· * 3)) ++ [15]) (acc, acc.length) =
      if acc.length + (((List.range' j m).map (fun i => f i % num)).filter (fun d => decide (d ≠ index))).length < count
      then .error .index
      else .ok (acc ++ (((List.range' j m).map (fun i => f i % num)).filter (fun d => decide (d ≠ index))).take
        (count - acc.length), count) := by
  induction m generalizing j acc with
  | zero =>
    simp only [List.range'_zero, List.map_nil, List.nil_append, shortScan, List.filter_nil, List.length_nil, Nat.add_zero,
      List.take_nil, List.append_nil]
    rw [dataIdx_error (by omega) (by omega), bind_error]
    by_cases h : acc.length < count
    · rw [if_pos h, if_pos h]
    · rw [if_neg h, if_neg h, show acc.length = count by omega]
  | succ m ih =>
    rw [List.range'_succ, List.map_cons, List.cons_append]
    unfold shortScan
    by_cases hlt : acc.length < count
    · rw [if_pos hlt, hf j (by omega), bind_ok, mod!_of_pos hi, bind_ok, List.map_cons]
      by_cases hne : f j % num ≠ index
      · rw [if_pos hne, List.filter_cons_of_pos (by simpa using hne)]
        have := ih (j + 1) (by omega) (acc ++ [f j % num]) (by simp; omega)
        rw [List.length_append] at this
        simp only [List.length_singleton] at this
        rw [this, List.length_cons]
        obtain ⟨k, hk⟩ : ∃ k, count - acc.length = k + 1 := ⟨count - acc.length - 1, by omega⟩
        rw [hk, List.take_succ_cons, show count - (acc.length + 1) = k by omega]
        generalize ((List.range' (j + 1) m).map (fun i => f i % num)).filter (fun d => decide (d ≠ index)) = b
        rw [show acc.length + 1 + b.length = acc.length + (b.length + 1) by omega]
        simp
      · rw [if_neg hne, List.filter_cons_of_neg (by simpa using hne), ih (j + 1) (by omega) acc hacc]
    · rw [if_neg hlt, if_neg (by omega), show count - acc.length = 0 by omega, show acc.length = count by omega]
      simp

/-- The hash-chosen short list above 65536 positions with at most five requested: it exists if enough of
the first five numbers differ from the unit itself; otherwise the call panics. -/
theorem shortDependRandom_few {H : Bytes → Bytes} (hH : ∀ x, (H x).length = 32) {num index count : Nat}
    (hnum : 65536 < num) (hc : count ≤ 5) (data : Bytes) :
    shortDependRandom H num data index count =
      if count ≤ (((List.range 5).map (fun i => drawn H data num i % num)).filter (fun d => decide (d ≠ index))).length
      then .ok (sortDedup ((((List.range 5).map (fun i => drawn H data num i % num)).filter
        (fun d => decide (d ≠ index))).take count))
      else .error .index := by
  unfold shortDependRandom
  rw [hash16_eq hH]
  simp only [bind_ok]
  rw [stepOf_large (by omega), show (H data).take 16 = prefixChain H data 0 from rfl]
  have hl := prefixChain_length hH data 0
  have hp : positions 3 = (List.range' 0 5).map (· * 3) ++ [15] := by decide
  have h1 := shortScan_three (index := index) (count := count) hl (show 0 < num by omega) (drawn H data num) (fun i h5 => by
    rw [dataIdx_three (by omega)]
    unfold drawn streamByte
    rw [if_neg (by omega), if_neg (by omega)]
    rw [show 3 * i / 16 = 0 by omega, show (3 * i + 1) / 16 = 0 by omega, show (3 * i + 2) / 16 = 0 by omega,
      show 3 * i % 16 = i * 3 by omega, show (3 * i + 1) % 16 = i * 3 + 1 by omega,
      show (3 * i + 2) % 16 = i * 3 + 2 by omega]) 5 0 (by omega) [] (by simp)
  simp only [List.length_nil, Nat.zero_add, Nat.sub_zero, List.nil_append] at h1
  rw [hp, h1, List.range_eq_range', show count / (8 * 3) - 1 = 0 by omega]
  generalize ((List.range' 0 5).map (fun i => drawn H data num i % num)).filter (fun d => decide (d ≠ index)) = b
  by_cases h : b.length < count
  · rw [if_pos h, if_neg (by omega), bind_error]
  · rw [if_neg h, if_pos (by omega), bind_ok]
    rfl

theorem longModeRandom_some {H : Bytes → Bytes} (hH : ∀ x, (H x).length = 32) {num index count : Nat}
    (hnum : num ≤ 65536 ∨ count ≤ 5) (data : Bytes) : ∃ l, longModeRandom H num data index count = .ok l := by
  rcases Nat.eq_zero_or_pos index with h | h
  · exact ⟨[], by unfold longModeRandom; rw [if_pos h]⟩
  · exact ⟨_, longModeRandom_eq hH hnum h data⟩

theorem shortDependRandom_some {H : Bytes → Bytes} (hH : ∀ x, (H x).length = 32) {num index count : Nat}
    (hn0 : 0 < num) (hnum : num ≤ 65536 ∨ count = 0) (data : Bytes) :
    ∃ l, shortDependRandom H num data index count = .ok l := ⟨_, shortDependRandom_eq hH hn0 hnum data⟩

end PoS
