import Verif.Properties.Update
import Verif.Spec.Oracle

/-
C127: without short dependencies every unit is sealed on its own; with static ones a difference runs through the rest of
its block.
-/

namespace PoS

namespace Sealing

/-- What is hashed for unit `j` when no other unit of the block is chosen. -/
def columnMask (deps : List (List Bytes)) (chain : Bytes) (j : Nat) : Bytes :=
  (deps.map (fun d => d.getD j [])).flatten ++ (if j = 0 then chain else [])

theorem maskInput_column {S : Sealing} (hs : ∀ s j, S.short s j = []) (deps : List (List Bytes)) (chain : Bytes) (b : List Bytes)
    (j : Nat) : S.maskInput deps chain b j = columnMask deps chain j := by
  unfold maskInput columnMask
  rw [hs, List.map_nil, List.flatten_nil, List.append_nil]

/-- One unit, sealed once with the mask made from `m`. -/
def maskAndEncode (S : Sealing) (m u : Bytes) : Bytes :=
  leBytes S.unitPl (S.enc ((leNat u + leNat (S.H m)) % S.p))

theorem round_column {S : Sealing} (hs : ∀ s j, S.short s j = []) (deps : List (List Bytes)) (chain : Bytes) (b : List Bytes)
    (j : Nat) (hj : j < b.length) : ∀ i,
    ((List.range i).foldl (S.stepUnit deps chain) b).length = b.length ∧
    ((List.range i).foldl (S.stepUnit deps chain) b).getD j [] =
      if j < i then S.maskAndEncode (columnMask deps chain j) (b.getD j []) else b.getD j [] := by
  intro i
  induction i with
  | zero => exact ⟨rfl, rfl⟩
  | succ i ih =>
    obtain ⟨ih1, ih2⟩ := ih
    rw [List.range_succ, List.foldl_append]
    simp only [List.foldl_cons, List.foldl_nil]
    generalize (List.range i).foldl (S.stepUnit deps chain) b = s at ih1 ih2
    unfold stepUnit
    rw [maskInput_column hs]
    refine ⟨by rw [List.length_set, ih1], ?_⟩
    by_cases e : j = i
    · subst e
      rw [if_pos (Nat.lt_succ_self j), List.getD_eq_getElem?_getD, List.getElem?_set_self (by omega), Option.getD_some, ih2,
        if_neg (Nat.lt_irrefl j)]
      rfl
    · rw [getD_set_ne _ _ _ _ _ (fun h => e h.symm), ih2]
      by_cases hlt : j < i
      · rw [if_pos hlt, if_pos (by omega)]
      · rw [if_neg hlt, if_neg (by omega)]

theorem sealOne_column {S : Sealing} (hs : ∀ s j, S.short s j = []) (deps : List (List Bytes)) (chain : Bytes) (b : List Bytes)
    (hb : b.length = S.c) (j : Nat) (hj : j < S.c) :
    (S.sealOne deps chain b).getD j [] = (S.maskAndEncode (columnMask deps chain j))^[S.rounds] (b.getD j []) := by
  unfold sealOne
  generalize S.rounds = r
  have : ((fun b => (List.range S.c).foldl (S.stepUnit deps chain) b)^[r] b).length = b.length ∧
      ((fun b => (List.range S.c).foldl (S.stepUnit deps chain) b)^[r] b).getD j [] =
        (S.maskAndEncode (columnMask deps chain j))^[r] (b.getD j []) := by
    induction r with
    | zero => exact ⟨rfl, rfl⟩
    | succ r ih =>
      rw [Function.iterate_succ_apply', Function.iterate_succ_apply']
      generalize (fun b => (List.range S.c).foldl (S.stepUnit deps chain) b)^[r] b = s at ih
      obtain ⟨i1, i2⟩ := ih
      obtain ⟨h1, h2⟩ := round_column hs deps chain s j (by omega) S.c
      refine ⟨h1.trans i1, ?_⟩
      rw [h2, if_pos hj, i2]
  exact this.2

end Sealing

theorem shortOf_zero {H : Bytes → Bytes} {params : PosPara} (hcnt : params.cntS = 0) (n c : Nat) (s : Bytes) (j : Nat) :
    shortOf H params n c s j = [] := by
  unfold shortOf
  split
  · simp [hashShort, hcnt]
  · split
    · simp [staticShort, hcnt]
    · rfl

/-! ### C127 -/

/-- Without short dependencies, unit `j` of block `k` is sealed by adding the same digest before each of the encodings.
The digest is that of the sealed units `j` of the blocks that block `k` refers to, and for the first unit also of the
initial vector or the identifier of the previous block.  No other unit of the block enters. -/
theorem C127_units (H : Bytes → Bytes) (hH : ∀ x, (H x).length = 32) (params : PosPara)
    (p n c : Nat) (cfg : Config params p n c) (hL : LongModeOk params n) (hS : ShortModeOk params n c) (hcnt : params.cntS = 0)
    (file iv : Bytes) (hlen : n * params.blockPl ≤ file.length) (hu : UnitsBelow params p n c file)
    (st : SealState) (h : sealFile H params file (p : Int) iv = .ok st) (k j : Nat) (hk : k < n) (hj : j < c) :
    readFile st.file ((k * c + j) * params.unitPl) params.unitPl =
      (fun u => leBytes params.unitPl (encode p params.vdeRounds ((leNat u + leNat (H (
        ((longOf H params n (H (readFile st.file ((k - 1) * params.blockPl) params.blockPl)) k).map
          (fun i => readFile st.file ((i * c + j) * params.unitPl) params.unitPl)).flatten ++
        (if j = 0 then (if k = 0 then iv else H (readFile st.file ((k - 1) * params.blockPl) params.blockPl)) else [])))) % p)))^[params.sealRounds]
        (readFile file ((k * c + j) * params.unitPl) params.unitPl) := by
  have hd : describes (sealingOf H params p c iv (longOf H params n) (shortOf H params n c)) H params p n c iv :=
    ⟨rfl, rfl, rfl, rfl, rfl, rfl, rfl, rfl, rfl⟩
  set S := sealingOf H params p c iv (longOf H params n) (shortOf H params n c) with hSdef
  have hs : ∀ s j, S.short s j = [] := fun s j => shortOf_zero hcnt n c s j
  have unitAt : ∀ f i, (plainUnits params c f i).getD j [] = readFile f ((i * c + j) * params.unitPl) params.unitPl := by
    intro f i
    unfold plainUnits
    rw [List.getD_eq_getElem?_getD, List.getElem?_map, List.getElem?_range hj]
    rfl
  have blk : ∀ i < n, plainUnits params c st.file i = (S.sealedBlocks (plainUnits params c file) n).getD i [] := by
    intro i hi
    rw [sealedBlocks_last S _ hi]
    exact sealed_units hH cfg hL hS hlen hu hd h hi
  have hidx : ∀ id, ∀ i ∈ longOf H params n id k, i < k := by
    obtain ⟨t, -, ht⟩ := longOf_is hH hL
    exact fun id => ((ht k hk) id).1
  obtain ⟨s', g1, g2, -⟩ := C64_seal_exact H hH params p n c cfg hL hS file iv hlen hu S hd
  rw [h] at g1
  cases g1
  have hid : k ≠ 0 → ((S.sealedBlocks (plainUnits params c file) k).getD (k - 1) []).flatten =
      readFile st.file ((k - 1) * params.blockPl) params.blockPl := by
    intro hk0
    rw [g2 (k - 1) (by omega), ← sealedBlocks_getD S (plainUnits params c file) (by omega : k - 1 < k) (by omega : k ≤ n)]
    rfl
  have hcol := Sealing.sealOne_column hs (S.dependencies (S.sealedBlocks (plainUnits params c file) k) k)
    (S.chaining (S.sealedBlocks (plainUnits params c file) k) k) (plainUnits params c file k)
    (by unfold plainUnits; rw [List.length_map, List.length_range]; rfl) j hj
  rw [← sealed_units hH cfg hL hS hlen hu hd h hk, unitAt, unitAt] at hcol
  rw [hcol]
  have hm : Sealing.columnMask (S.dependencies (S.sealedBlocks (plainUnits params c file) k) k)
      (S.chaining (S.sealedBlocks (plainUnits params c file) k) k) j =
      ((longOf H params n (H (readFile st.file ((k - 1) * params.blockPl) params.blockPl)) k).map
          (fun i => readFile st.file ((i * c + j) * params.unitPl) params.unitPl)).flatten ++
        (if j = 0 then (if k = 0 then iv else H (readFile st.file ((k - 1) * params.blockPl) params.blockPl)) else []) := by
    unfold Sealing.columnMask Sealing.dependencies Sealing.chaining
    show ((List.map _ (longOf H params n (H _) k)).map _).flatten ++ (if j = 0 then (if k = 0 then iv else H _) else []) = _
    by_cases hk0 : k = 0
    · have e : ∀ id, longOf H params n id k = [] := by
        intro id
        apply List.eq_nil_iff_forall_not_mem.mpr
        intro i hi
        have := hidx id i hi
        omega
      rw [e, e, if_pos hk0, if_pos hk0]
      rfl
    · rw [hid hk0, if_neg hk0]
      congr 2
      rw [List.map_map]
      apply List.map_congr_left
      intro i hi
      have hik := hidx _ i hi
      show ((S.sealedBlocks (plainUnits params c file) k).getD i []).getD j [] = _
      rw [← sealedBlocks_getD S (plainUnits params c file) hik (by omega : k ≤ n), ← blk i (by omega), unitAt]
  rw [hm]
  rfl

/-- With static long dependencies as well, all units but the first ones of the blocks are the same in copies sealed with
different initial vectors. -/
theorem C127_copies (H : Bytes → Bytes) (hH : ∀ x, (H x).length = 32) (params : PosPara)
    (p n c : Nat) (cfg : Config params p n c) (hL : LongModeOk params n) (hS : ShortModeOk params n c) (hcnt : params.cntS = 0)
    (hmode : params.modeL ≠ 0) (file iv iv' : Bytes) (hlen : n * params.blockPl ≤ file.length) (hu : UnitsBelow params p n c file)
    (st st' : SealState) (h : sealFile H params file (p : Int) iv = .ok st) (h' : sealFile H params file (p : Int) iv' = .ok st')
    (k j : Nat) (hk : k < n) (hj : j < c) (hj0 : 0 < j) :
    readFile st.file ((k * c + j) * params.unitPl) params.unitPl = readFile st'.file ((k * c + j) * params.unitPl) params.unitPl := by
  induction k using Nat.strong_induction_on with
  | _ k ih =>
    rw [C127_units H hH params p n c cfg hL hS hcnt file iv hlen hu st h k j hk hj,
      C127_units H hH params p n c cfg hL hS hcnt file iv' hlen hu st' h' k j hk hj, if_neg (by omega), if_neg (by omega)]
    have hidx : ∀ id, ∀ i ∈ longOf H params n id k, i < k := by
      obtain ⟨t, -, ht⟩ := longOf_is hH hL
      exact fun id => ((ht k hk) id).1
    have e : ∀ id id', longOf H params n id k = longOf H params n id' k := by
      intro id id'
      unfold longOf
      rw [if_neg hmode]
    rw [e _ (H (readFile st.file ((k - 1) * params.blockPl) params.blockPl))]
    rw [show ((longOf H params n (H (readFile st.file ((k - 1) * params.blockPl) params.blockPl)) k).map
          (fun i => readFile st.file ((i * c + j) * params.unitPl) params.unitPl)) =
        ((longOf H params n (H (readFile st.file ((k - 1) * params.blockPl) params.blockPl)) k).map
          (fun i => readFile st'.file ((i * c + j) * params.unitPl) params.unitPl)) from
      List.map_congr_left (fun i hi => ih i (hidx _ i hi) (by have := hidx _ i hi; omega))]
    rw [e (H (readFile st'.file ((k - 1) * params.blockPl) params.blockPl)) (H (readFile st.file ((k - 1) * params.blockPl) params.blockPl))]

/-- The first block: equal units other than the first are sealed alike, at whatever positions, in whatever file, and with
whatever initial vector. -/
theorem C127_first_block (H : Bytes → Bytes) (hH : ∀ x, (H x).length = 32) (params : PosPara)
    (p n c : Nat) (cfg : Config params p n c) (hL : LongModeOk params n) (hS : ShortModeOk params n c) (hcnt : params.cntS = 0)
    (hn : 0 < n) (file file' iv iv' : Bytes) (hlen : n * params.blockPl ≤ file.length) (hlen' : n * params.blockPl ≤ file'.length)
    (hu : UnitsBelow params p n c file) (hu' : UnitsBelow params p n c file')
    (st st' : SealState) (h : sealFile H params file (p : Int) iv = .ok st) (h' : sealFile H params file' (p : Int) iv' = .ok st')
    (j j' : Nat) (hj : j < c) (hj' : j' < c) (h0 : 0 < j) (h0' : 0 < j')
    (heq : readFile file (j * params.unitPl) params.unitPl = readFile file' (j' * params.unitPl) params.unitPl) :
    readFile st.file (j * params.unitPl) params.unitPl = readFile st'.file (j' * params.unitPl) params.unitPl := by
  have e : ∀ id, longOf H params n id 0 = [] := by
    intro id
    obtain ⟨t, -, ht⟩ := longOf_is hH hL
    apply List.eq_nil_iff_forall_not_mem.mpr
    intro i hi
    have := ((ht 0 hn) id).1 i hi
    omega
  have a := C127_units H hH params p n c cfg hL hS hcnt file iv hlen hu st h 0 j hn hj
  have b := C127_units H hH params p n c cfg hL hS hcnt file' iv' hlen' hu' st' h' 0 j' hn hj'
  rw [e, if_neg (by omega), Nat.zero_mul, Nat.zero_add] at a b
  rw [a, b, heq]
  rfl

/-- A unit keeps its value for the rest of the round once it is sealed. -/
theorem sealed_stays (S : Sealing) (deps : List (List Bytes)) (chain : Bytes) (b : List Bytes) {i a : Nat} (h : i < a) (d : Nat) :
    ((List.range (a + d)).foldl (S.stepUnit deps chain) b).getD i [] =
      ((List.range a).foldl (S.stepUnit deps chain) b).getD i [] := by
  induction d with
  | zero => rfl
  | succ d ih =>
    rw [← Nat.add_assoc, List.range_succ, List.foldl_append]
    simp only [List.foldl_cons, List.foldl_nil]
    conv_lhs => unfold Sealing.stepUnit
    rw [Sealing.getD_set_ne _ _ _ _ _ (by omega)]
    exact ih

theorem staticShort_head {n cnt j : Nat} (hcnt : 0 < cnt) (hj : 0 < j) : ∃ rest, staticShort n cnt j = (j - 1) :: rest := by
  obtain ⟨cnt, rfl⟩ := Nat.exists_eq_succ_of_ne_zero (by omega : cnt ≠ 0)
  unfold staticShort
  rw [List.range_succ_eq_map, List.flatMap_cons, Nat.mul_zero, Nat.add_zero, if_pos (show 1 ≤ j from hj)]
  exact ⟨_, rfl⟩

/-- What is known about a sealed block with one round: the input of the mask of unit `j`, in terms of the sealed file. -/
theorem one_round_block {H : Bytes → Bytes} (hH : ∀ x, (H x).length = 32) {params : PosPara}
    {p n c : Nat} (cfg : Config params p n c) (hp : 256 ^ params.unitL + 256 ^ 32 ≤ p) (hr : params.sealRounds = 1)
    (hL : LongModeOk params n) (hS : ShortModeOk params n c) (hmode : params.modeS = 1) {origin padded iv : Bytes}
    (hlen : origin.length = params.dataL) (hpad : copyAndPad origin params.dataL params.unitL = .ok padded)
    {S : Sealing} (hd : describes S H params p n c iv) {st : SealState} (h : sealFile H params padded (p : Int) iv = .ok st)
    {k : Nat} (hk : k < n) :
    (∀ j < c, readFile st.file ((k * c + j) * params.unitPl) params.unitPl = leBytes params.unitPl (encode p params.vdeRounds
      (leNat (readFile padded ((k * c + j) * params.unitPl) params.unitPl) +
        leNat (H (S.maskAt (plainUnits params c padded) k 0 j))))) ∧
    ∀ j < c, 0 < j → ∃ (l : List Bytes) (s : Nat → Bytes), (∀ u ∈ l, u.length = params.unitPl) ∧
      (∀ i, (s i).length = if i < c then params.unitPl else 0) ∧
      s (j - 1) = readFile st.file ((k * c + (j - 1)) * params.unitPl) params.unitPl ∧
      S.maskAt (plainUnits params c padded) k 0 j = l.flatten ++ ((staticShort n params.cntS j).map s).flatten := by
  obtain ⟨pd, g1, g2, g3, -⟩ := padded_unitsBelow cfg hlen
  rw [hpad] at g1
  cases g1
  set plain := plainUnits params c padded with hplain
  set D := S.dependencies (S.sealedBlocks plain k) k with hD
  set Ch := S.chaining (S.sealedBlocks plain k) k with hCh
  have unitAt : ∀ f i j, j < c → (plainUnits params c f i).getD j [] = readFile f ((i * c + j) * params.unitPl) params.unitPl := by
    intro f i j hj
    unfold plainUnits
    rw [List.getD_eq_getElem?_getD, List.getElem?_map, List.getElem?_range hj]
    rfl
  have hSc : S.c = c := hd.2.2.2.2.1
  have hfin : plainUnits params c st.file k = (List.range c).foldl (S.stepUnit D Ch) (plain k) := by
    rw [sealed_units hH cfg hL hS (by omega) g3 hd h hk]
    unfold Sealing.sealOne
    rw [hd.2.2.2.2.2.1, hr, hSc]
    rfl
  have hplen : (plain k).length = c := by rw [hplain, plainUnits_length]
  have hll : ∀ i, ((List.range i).foldl (S.stepUnit D Ch) (plain k)).length = c := by
    intro i
    induction i with
    | zero => exact hplen
    | succ i ih =>
      rw [List.range_succ, List.foldl_append]
      simp only [List.foldl_cons, List.foldl_nil]
      unfold Sealing.stepUnit
      rw [List.length_set]
      exact ih
  have F := fun j (hj : j < c) => C86_first_round H hH params p n c cfg hp origin iv padded hlen hpad S hd D Ch k j hk hj
  constructor
  · intro j hj
    rw [← unitAt st.file k j hj, hfin]
    have e := sealed_stays S D Ch (plain k) (Nat.lt_succ_self j) (c - (j + 1))
    rw [show j + 1 + (c - (j + 1)) = c by omega] at e
    rw [e, List.range_succ, List.foldl_append]
    simp only [List.foldl_cons, List.foldl_nil]
    have step : ∀ t : List Bytes, t.length = c → (S.stepUnit D Ch t j).getD j [] =
        leBytes S.unitPl (S.enc (S.encoderInput D Ch t j)) := by
      intro t ht
      unfold Sealing.stepUnit
      rw [List.getD_eq_getElem?_getD, List.getElem?_set_self (by omega), Option.getD_some]
      rfl
    rw [step _ (hll j)]
    have Fj : S.encoderInput D Ch ((List.range j).foldl (S.stepUnit D Ch) (plain k)) j = _ := F j hj
    rw [Fj, hd.2.2.2.1, hd.2.1]
    rfl
  · intro j hj hj0
    refine ⟨D.map (fun d => d.getD j []), fun i => ((List.range j).foldl (S.stepUnit D Ch) (plain k)).getD i [], ?_, ?_, ?_, ?_⟩
    · intro u hu
      obtain ⟨d, hd', rfl⟩ := List.mem_map.mp hu
      rw [hD] at hd'
      unfold Sealing.dependencies at hd'
      obtain ⟨i, hi, rfl⟩ := List.mem_map.mp hd'
      have hik : i < k := by
        rw [hd.2.2.2.2.2.2.2.1] at hi
        obtain ⟨t, -, ht⟩ := longOf_is hH hL
        exact ((ht k hk) _).1 i hi
      rw [sealedBlocks_last S plain hik, ← sealed_units hH cfg hL hS (by omega) g3 hd h (by omega : i < n), unitAt _ _ _ hj,
        readFile_length]
    · intro i
      show (((List.range j).foldl (S.stepUnit D Ch) (plain k)).getD i []).length = _
      by_cases hic : i < c
      · rw [if_pos hic]
        by_cases hij : i < j
        · have e := sealed_stays S D Ch (plain k) hij (c - j)
          rw [show j + (c - j) = c by omega, ← hfin, unitAt _ _ _ hic] at e
          rw [← e, readFile_length]
        · rw [firstRound_unit S D Ch (plain k) j i (by omega), hplain, unitAt _ _ _ hic, readFile_length]
      · rw [if_neg hic, List.getD_eq_getElem?_getD, List.getElem?_eq_none (by rw [hll]; omega)]
        rfl
    · have e := sealed_stays S D Ch (plain k) (by omega : j - 1 < j) (c - j)
      rw [show j + (c - j) = c by omega, ← hfin, unitAt _ _ _ (by omega)] at e
      exact e.symm
    · unfold Sealing.maskAt Sealing.maskInput
      simp only []
      rw [if_neg (by omega : j ≠ 0), if_neg (by omega : j ≠ 0), List.append_nil, hd.2.2.2.2.2.2.2.2]
      unfold shortOf
      rw [if_neg (by omega), if_pos hmode]
      rfl

/-- With static short dependencies (at least one) and one round: where two sealed files differ in a unit of block `k` and
the next unit of the original is the same, they also differ in the next unit, unless the inputs of its two masks are
different and have the same digest. -/
theorem C127_next (H : Bytes → Bytes) (hH : ∀ x, (H x).length = 32) (hz : ∀ x, H x ≠ zeros 32) (params : PosPara)
    (p n c : Nat) (cfg : Config params p n c) (hp : 256 ^ params.unitL + 256 ^ 32 ≤ p) (hr : params.sealRounds = 1)
    (hL : LongModeOk params n) (hS : ShortModeOk params n c) (hmode : params.modeS = 1) (hcnt : 0 < params.cntS)
    (origin origin' padded padded' iv iv' : Bytes) (hlen : origin.length = params.dataL) (hlen' : origin'.length = params.dataL)
    (hpad : copyAndPad origin params.dataL params.unitL = .ok padded)
    (hpad' : copyAndPad origin' params.dataL params.unitL = .ok padded')
    (S S' : Sealing) (hd : describes S H params p n c iv) (hd' : describes S' H params p n c iv')
    (st st' : SealState) (h : sealFile H params padded (p : Int) iv = .ok st) (h' : sealFile H params padded' (p : Int) iv' = .ok st')
    (k j : Nat) (hk : k < n) (hj : j + 1 < c)
    (hne : readFile st.file ((k * c + j) * params.unitPl) params.unitPl ≠ readFile st'.file ((k * c + j) * params.unitPl) params.unitPl)
    (heq : readFile origin ((k * c + (j + 1)) * params.unitL) params.unitL = readFile origin' ((k * c + (j + 1)) * params.unitL) params.unitL)
    (hcoll : H (S.maskAt (plainUnits params c padded) k 0 (j + 1)) = H (S'.maskAt (plainUnits params c padded') k 0 (j + 1)) →
      S.maskAt (plainUnits params c padded) k 0 (j + 1) = S'.maskAt (plainUnits params c padded') k 0 (j + 1)) :
    readFile st.file ((k * c + (j + 1)) * params.unitPl) params.unitPl ≠
      readFile st'.file ((k * c + (j + 1)) * params.unitPl) params.unitPl := by
  obtain ⟨a1, a2⟩ := one_round_block hH cfg hp hr hL hS hmode hlen hpad hd h hk
  obtain ⟨b1, b2⟩ := one_round_block hH cfg hp hr hL hS hmode hlen' hpad' hd' h' hk
  obtain ⟨l, s, l1, s1, s2, s3⟩ := a2 (j + 1) hj (by omega)
  obtain ⟨l', s', l1', s1', s2', s3'⟩ := b2 (j + 1) hj (by omega)
  have hin : k * c + (j + 1) < n * c :=
    calc k * c + (j + 1) < (k + 1) * c := by rw [Nat.add_mul]; omega
      _ ≤ n * c := Nat.mul_le_mul_right _ hk
  have hdl : params.dataL = (n * c) * params.unitL := by rw [cfg.data, cfg.block, Nat.mul_assoc]
  have same : readFile padded ((k * c + (j + 1)) * params.unitPl) params.unitPl =
      readFile padded' ((k * c + (j + 1)) * params.unitPl) params.unitPl := by
    obtain ⟨pd, f1, -, f3, -⟩ := C15_pad_compress origin params.unitL (n * c) cfg.unit_pos (by rw [hlen, hdl])
    obtain ⟨pd', f1', -, f3', -⟩ := C15_pad_compress origin' params.unitL (n * c) cfg.unit_pos (by rw [hlen', hdl])
    rw [← hdl, hpad] at f1
    cases f1
    rw [← hdl, hpad'] at f1'
    cases f1'
    rw [cfg.unit_pl, f3 _ hin, f3' _ hin, heq]
  intro he
  rw [a1 _ hj, b1 _ hj, ← same] at he
  have hlt := padded_units_small cfg hlen hpad hin
  have inv := inverse_of hH cfg iv (longOf H params n) n
  rw [← describes_sealingOf hd] at inv
  have bound : ∀ x, 0 < leNat (H x) ∧ leNat (H x) < 256 ^ 32 := by
    intro x
    refine ⟨Nat.pos_of_ne_zero (fun h0 => hz x ?_), by have := leNat_lt (H x); rwa [hH] at this⟩
    rw [eq_leBytes (hH _) h0]
    decide +kernel
  have hm : S.maskAt (plainUnits params c padded) k 0 (j + 1) = S'.maskAt (plainUnits params c padded') k 0 (j + 1) := by
    apply hcoll
    obtain ⟨x1, x2⟩ := bound (S.maskAt (plainUnits params c padded) k 0 (j + 1))
    obtain ⟨y1, y2⟩ := bound (S'.maskAt (plainUnits params c padded') k 0 (j + 1))
    generalize leNat (readFile padded ((k * c + (j + 1)) * params.unitPl) params.unitPl) = v at he hlt
    generalize S.maskAt (plainUnits params c padded) k 0 (j + 1) = m at *
    generalize S'.maskAt (plainUnits params c padded') k 0 (j + 1) = m' at *
    have l1 := inv.enc_lt (v + leNat (H m)) (by omega) (by rw [hd.2.2.1]; omega)
    have l2 := inv.enc_lt (v + leNat (H m')) (by omega) (by rw [hd.2.2.1]; omega)
    have d1 := inv.dec_enc (v + leNat (H m)) (by omega) (by rw [hd.2.2.1]; omega)
    have d2 := inv.dec_enc (v + leNat (H m')) (by omega) (by rw [hd.2.2.1]; omega)
    rw [hd.2.1] at l1 l2 d1 d2
    rw [hd.2.2.1] at l1 l2
    have he := congrArg leNat he
    rw [leNat_leBytes (lt_of_lt_of_le l1 cfg.fits), leNat_leBytes (lt_of_lt_of_le l2 cfg.fits)] at he
    rw [he, d2] at d1
    exact leNat_inj (by rw [hH, hH]) (by omega)
  rw [s3, s3'] at hm
  have hss : ∀ (L : List Nat), ((L.map s).flatten).length = ((L.map s').flatten).length := by
    intro L
    induction L with
    | nil => rfl
    | cons x L ih =>
      rw [List.map_cons, List.map_cons, List.flatten_cons, List.flatten_cons, List.length_append, List.length_append, ih, s1, s1']
  have hm := List.append_inj_right' hm (hss _)
  obtain ⟨rest, hrest⟩ := staticShort_head (n := n) hcnt (by omega : 0 < j + 1)
  rw [hrest, List.map_cons, List.map_cons, List.flatten_cons, List.flatten_cons] at hm
  have hm := List.append_inj_left hm (by rw [s1, s1'])
  rw [s2, s2', Nat.add_sub_cancel] at hm
  exact hne hm

/-- A hash that begins with the byte 2, keeps the last byte of its argument, and is never zero. -/
def twoHash (x : Bytes) : Bytes := 2 :: (zeros 30 ++ [x.getLast?.getD 0])

/-- With dependencies chosen by the hash this is not so: the second unit may be chosen to depend on the third only, and then a
difference in the first sealed unit does not reach it (it reaches the third). -/
theorem C127_skipped : ∃ (H : Bytes → Bytes) (origin origin' padded padded' : Bytes) (st st' : SealState),
    (∀ x, (H x).length = 32) ∧ (∀ x, H x ≠ zeros 32) ∧ origin.length = 189 ∧ origin'.length = 189 ∧
    copyAndPad origin 189 63 = .ok padded ∧ copyAndPad origin' 189 63 = .ok padded' ∧
    sealFile H (toyParams 1 3 0 0 1 1 1) padded P_512 [7] = .ok st ∧
    sealFile H (toyParams 1 3 0 0 1 1 1) padded' P_512 [7] = .ok st' ∧
    readFile st.file 0 64 ≠ readFile st'.file 0 64 ∧
    readFile origin 63 63 = readFile origin' 63 63 ∧ readFile st.file 64 64 = readFile st'.file 64 64 ∧
    readFile st.file 128 64 ≠ readFile st'.file 128 64 := by
  have run : (match copyAndPad (List.replicate 63 1 ++ List.replicate 126 2) 189 63,
      copyAndPad (List.replicate 63 3 ++ List.replicate 126 2) 189 63 with
    | .ok x, .ok y => (match sealFile twoHash (toyParams 1 3 0 0 1 1 1) x P_512 [7],
        sealFile twoHash (toyParams 1 3 0 0 1 1 1) y P_512 [7] with
      | .ok s, .ok s' => decide (readFile s.file 0 64 ≠ readFile s'.file 0 64 ∧ readFile s.file 64 64 = readFile s'.file 64 64 ∧
          readFile s.file 128 64 ≠ readFile s'.file 128 64)
      | _, _ => false)
    | _, _ => false) = true := by decide +kernel
  cases h1 : copyAndPad (List.replicate 63 1 ++ List.replicate 126 2) 189 63 with
  | error e => rw [h1] at run; cases run
  | ok x =>
    cases h2 : copyAndPad (List.replicate 63 3 ++ List.replicate 126 2) 189 63 with
    | error e => rw [h1, h2] at run; cases run
    | ok y =>
      rw [h1, h2] at run
      simp only [] at run
      cases h3 : sealFile twoHash (toyParams 1 3 0 0 1 1 1) x P_512 [7] with
      | error e => rw [h3] at run; cases run
      | ok s =>
        cases h4 : sealFile twoHash (toyParams 1 3 0 0 1 1 1) y P_512 [7] with
        | error e => rw [h3, h4] at run; cases run
        | ok s' =>
          rw [h3, h4] at run
          simp only [decide_eq_true_eq] at run
          refine ⟨twoHash, _, _, x, y, s, s', fun x => by simp [twoHash, zeros], fun x e => ?_, by decide +kernel, by decide +kernel,
            h1, h2, h3, h4, run.1, by decide +kernel, run.2.1, run.2.2⟩
          have e : (2 : UInt8) = 0 := (List.cons.inj e).1
          cases e

/-- Meets the hypotheses of all three: three blocks of two units, one static long dependency, two rounds, two initial
vectors; the padded file is sealed, and its second units come out alike in both copies. -/
example (origin iv iv' : Bytes) (ho : origin.length = 378) : ∃ padded st st',
    copyAndPad origin 378 63 = .ok padded ∧
    sealFile toyHash (toyParams 3 2 1 0 1 0 2) padded P_512 iv = .ok st ∧
    sealFile toyHash (toyParams 3 2 1 0 1 0 2) padded P_512 iv' = .ok st' ∧
    (∀ k < 3, readFile st.file ((k * 2 + 1) * 64) 64 = readFile st'.file ((k * 2 + 1) * 64) 64) ∧
    ∃ p : Nat, (p : Int) = P_512 ∧ ∀ k < 3, readFile st.file ((k * 2 + 1) * 64) 64 =
      (fun u => leBytes 64 (encode p 1 ((leNat u + leNat (toyHash (
        ((staticLong 1 1 k).map (fun i => readFile st.file ((i * 2 + 1) * 64) 64)).flatten ++ []))) % p)))^[2]
        (readFile padded ((k * 2 + 1) * 64) 64) := by
  obtain ⟨p, hp, cfg⟩ := toy_config 3 2 1 0 1 0 2 (by norm_num)
  obtain ⟨padded, g1, g2, g3, -⟩ := padded_unitsBelow cfg ho
  have hL : LongModeOk (toyParams 3 2 1 0 1 0 2) 3 := by unfold LongModeOk; decide
  have hS : ShortModeOk (toyParams 3 2 1 0 1 0 2) 3 2 := by unfold ShortModeOk; decide
  have run := fun iv => C64_seal_exact toyHash toyHash_length (toyParams 3 2 1 0 1 0 2) p 3 2 cfg hL hS padded iv (by omega) g3
    (sealingOf toyHash (toyParams 3 2 1 0 1 0 2) p 2 iv (longOf toyHash (toyParams 3 2 1 0 1 0 2) 3)
      (shortOf toyHash (toyParams 3 2 1 0 1 0 2) 3 2)) ⟨rfl, rfl, rfl, rfl, rfl, rfl, rfl, rfl, rfl⟩
  obtain ⟨st, a, -⟩ := run iv
  obtain ⟨st', b, -⟩ := run iv'
  refine ⟨padded, st, st', g1, by rw [← hp]; exact a, by rw [← hp]; exact b, fun k hk => ?_, p, hp, fun k hk => ?_⟩
  · exact C127_copies toyHash toyHash_length _ p 3 2 cfg hL hS rfl (by decide) padded iv iv' (by omega) g3 st st' a b k 1 hk
      (by norm_num) (by norm_num)
  · exact C127_units toyHash toyHash_length _ p 3 2 cfg hL hS rfl padded iv (by omega) g3 st a k 1 hk (by norm_num)

/-- Meets the hypotheses of `C127_next`: two blocks of two units with one static short dependency each; the first unit is
changed, and the second sealed unit changes with it. -/
example : ∃ p : Nat, (p : Int) = P_512 ∧ ∃ padded padded' st st',
    copyAndPad (List.replicate 63 1 ++ List.replicate 189 2) 252 63 = .ok padded ∧
    copyAndPad (List.replicate 63 3 ++ List.replicate 189 2) 252 63 = .ok padded' ∧
    sealFile tailHash (toyParams 2 2 0 1 1 1 1) padded (p : Int) [7] = .ok st ∧
    sealFile tailHash (toyParams 2 2 0 1 1 1 1) padded' (p : Int) [7] = .ok st' ∧
    readFile st.file 64 64 ≠ readFile st'.file 64 64 := by
  obtain ⟨p, hp, cfg⟩ := toy_config 2 2 0 1 1 1 1 (by norm_num)
  have hH : ∀ x, (tailHash x).length = 32 := by
    intro x
    simp [tailHash, zeros]
  have hz : ∀ x, tailHash x ≠ zeros 32 := by
    intro x e
    have e : (1 : UInt8) = 0 := (List.cons.inj e).1
    cases e
  have hbig : 256 ^ (toyParams 2 2 0 1 1 1 1).unitL + 256 ^ 32 ≤ p := by
    have : p = P_512.toNat := by rw [← hp]; rfl
    rw [this]
    show 256 ^ 63 + 256 ^ 32 ≤ _
    decide +kernel
  have hL : LongModeOk (toyParams 2 2 0 1 1 1 1) 2 := by unfold LongModeOk; decide
  have hS : ShortModeOk (toyParams 2 2 0 1 1 1 1) 2 2 := by unfold ShortModeOk; decide
  set origin : Bytes := List.replicate 63 1 ++ List.replicate 189 2 with ho
  set origin' : Bytes := List.replicate 63 3 ++ List.replicate 189 2 with ho'
  have hlen : origin.length = (toyParams 2 2 0 1 1 1 1).dataL := by rw [ho]; decide +kernel
  have hlen' : origin'.length = (toyParams 2 2 0 1 1 1 1).dataL := by rw [ho']; decide +kernel
  obtain ⟨padded, g1, g2, g3, -⟩ := padded_unitsBelow cfg (origin := origin) hlen
  obtain ⟨padded', g1', g2', g3', -⟩ := padded_unitsBelow cfg (origin := origin') hlen'
  have D : describes (sealingOf tailHash (toyParams 2 2 0 1 1 1 1) p 2 [7] (longOf tailHash (toyParams 2 2 0 1 1 1 1) 2)
      (shortOf tailHash (toyParams 2 2 0 1 1 1 1) 2 2)) tailHash (toyParams 2 2 0 1 1 1 1) p 2 2 [7] :=
    ⟨rfl, rfl, rfl, rfl, rfl, rfl, rfl, rfl, rfl⟩
  obtain ⟨st, a1, -⟩ := C64_seal_exact tailHash hH _ p 2 2 cfg hL hS padded [7] g2.ge g3 _ D
  obtain ⟨st', b1, -⟩ := C64_seal_exact tailHash hH _ p 2 2 cfg hL hS padded' [7] g2'.ge g3' _ D
  refine ⟨p, hp, padded, padded', st, st', g1, g1', a1, b1, ?_⟩
  -- the run, computed
  have run : (match copyAndPad (List.replicate 63 1 ++ List.replicate 189 2) 252 63,
      copyAndPad (List.replicate 63 3 ++ List.replicate 189 2) 252 63 with
    | .ok x, .ok y => (match sealFile tailHash (toyParams 2 2 0 1 1 1 1) x P_512 [7],
        sealFile tailHash (toyParams 2 2 0 1 1 1 1) y P_512 [7] with
      | .ok s, .ok s' => decide ((readFile s.file 0 64).getLast?.getD 0 ≠ (readFile s'.file 0 64).getLast?.getD 0)
      | _, _ => false)
    | _, _ => false) = true := by decide +kernel
  have g1c : copyAndPad (List.replicate 63 1 ++ List.replicate 189 2) 252 63 = .ok padded := g1
  have g1c' : copyAndPad (List.replicate 63 3 ++ List.replicate 189 2) 252 63 = .ok padded' := g1'
  rw [g1c, g1c'] at run
  simp only [] at run
  rw [hp] at a1 b1
  rw [a1, b1] at run
  simp only [decide_eq_true_eq] at run
  rw [← hp] at a1 b1
  have last : ∀ x y, tailHash x = tailHash y → x.getLast?.getD 0 = y.getLast?.getD 0 := by
    intro x y e
    have e := (List.cons.inj e).2
    have e := List.append_cancel_left e
    exact (List.cons.inj e).1
  have tail : ∀ X x : Bytes, x.length = 64 → (X ++ x).getLast?.getD 0 = x.getLast?.getD 0 := by
    intro X x hx
    rw [List.getLast?_append]
    cases h : x.getLast? with
    | none =>
      rw [List.getLast?_eq_none_iff] at h
      rw [h] at hx
      cases hx
    | some v => rfl
  obtain ⟨l, s, -, -, s2, s3⟩ := (one_round_block hH cfg hbig rfl hL hS rfl hlen g1 D a1 (k := 0) (by norm_num)).2 1
    (by norm_num) (by norm_num)
  obtain ⟨l', s', -, -, s2', s3'⟩ := (one_round_block hH cfg hbig rfl hL hS rfl hlen' g1' D b1 (k := 0) (by norm_num)).2 1
    (by norm_num) (by norm_num)
  have hst : staticShort 2 (toyParams 2 2 0 1 1 1 1).cntS 1 = [0] := by decide +kernel
  rw [hst] at s3 s3'
  simp only [List.map_cons, List.map_nil, List.flatten_cons, List.flatten_nil, List.append_nil] at s3 s3'
  have s2 : s 0 = readFile st.file 0 64 := s2
  have s2' : s' 0 = readFile st'.file 0 64 := s2'
  refine C127_next tailHash hH hz _ p 2 2 cfg hbig rfl hL hS rfl (by decide) origin origin' padded padded' [7] [7] hlen hlen' g1 g1'
    _ _ D D st st' a1 b1 0 0 (by norm_num) (by norm_num) ?_ (by rw [ho, ho']; decide +kernel) ?_
  · intro e
    have e : readFile st.file 0 64 = readFile st'.file 0 64 := e
    exact run (by rw [e])
  · intro e
    rw [Nat.zero_add, s3, s3'] at e
    have e := last _ _ e
    rw [tail _ _ (by rw [s2, readFile_length]), tail _ _ (by rw [s2', readFile_length]), s2, s2'] at e
    exact absurd e run

end PoS
