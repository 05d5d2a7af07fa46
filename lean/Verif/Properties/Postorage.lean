import Verif.Model.Postorage
import Verif.Properties.Storage
import Verif.Properties.Parallel
import Verif.Properties.Merkle

/-
C04, C17, C34, C59: the public data file, the choice of modulus, the challenge protocol.
-/

namespace PoS

/-! ### C17: public data -/

theorem decLE_value (fuel n : Nat) (h : n < fuel) :
    (decLE fuel n).foldr (fun d a => a * 10 + (d.toNat - 48)) 0 = n := by
  induction fuel generalizing n with
  | zero => omega
  | succ fuel ih =>
    have hd : (UInt8.ofNat (48 + n % 10)).toNat = 48 + n % 10 := by
      rw [UInt8.toNat_ofNat']; omega
    unfold decLE
    rw [List.foldr_cons, hd]
    split
    · simp only [List.foldr_nil]; omega
    · rw [ih (n / 10) (by omega)]; omega

theorem decLE_digits (fuel n : Nat) : ∀ d ∈ decLE fuel n, 48 ≤ d.toNat ∧ d.toNat ≤ 57 := by
  induction fuel generalizing n with
  | zero => intro d hd; simp [decLE] at hd
  | succ fuel ih =>
    intro d hd
    unfold decLE at hd
    rcases List.mem_cons.mp hd with rfl | hd
    · have hd : (UInt8.ofNat (48 + n % 10)).toNat = 48 + n % 10 := by
        rw [UInt8.toNat_ofNat']; omega
      rw [hd]; omega
    · split at hd
      · simp at hd
      · exact ih _ d hd

theorem intStep_digit (sg : Option Bool) (o : Option Nat) (d : UInt8) (h : 48 ≤ d.toNat ∧ d.toNat ≤ 57) :
    intStep (sg, o) d = some (sg, some (o.getD 0 * 10 + (d.toNat - 48))) := by
  have h1 : d ≠ 43 := by rintro rfl; exact absurd h.1 (by decide)
  have h2 : d ≠ 45 := by rintro rfl; exact absurd h.1 (by decide)
  have h3 : d ≠ 95 := by rintro rfl; exact absurd h.2 (by decide)
  have h4 : ¬ (d = 32 ∨ (9 ≤ d.toNat ∧ d.toNat ≤ 13)) := by
    rintro (rfl | h4)
    · exact absurd h.1 (by decide)
    · omega
  unfold intStep
  rw [if_neg (fun h => h1 h.1), if_neg (fun h => h2 h.1), if_neg (fun h => h3 h.1), if_neg h4, if_pos h]

theorem intStep_digits (ds : Bytes) (sg : Option Bool) (o : Option Nat) (hne : ds ≠ [])
    (h : ∀ d ∈ ds, 48 ≤ d.toNat ∧ d.toNat ≤ 57) :
    ds.foldlM intStep (sg, o) =
      some (sg, some (ds.foldl (fun a d => a * 10 + (d.toNat - 48)) (o.getD 0))) := by
  induction ds generalizing o with
  | nil => exact absurd rfl hne
  | cons d ds ih =>
    rw [List.foldlM_cons, intStep_digit sg o d (h d (by simp))]
    show ds.foldlM intStep _ = _
    by_cases hd : ds = []
    · subst hd; rfl
    · rw [ih _ hd (fun d hd => h d (by simp [hd]))]; rfl

theorem decLE_foldlM (n : Nat) (sg : Option Bool) :
    (decLE (n + 1) n).reverse.foldlM intStep (sg, none) = some (sg, some n) := by
  rw [intStep_digits _ _ _ (by simp [decLE]) (fun d hd => decLE_digits _ _ d (by simpa using hd))]
  rw [List.foldl_reverse]
  show some (sg, some ((decLE (n + 1) n).foldr _ 0)) = _
  rw [decLE_value _ _ (by omega)]

/-- Parsing the printed form of an integer gives the integer back. -/
theorem intFromStr_toString (z : Int) : intFromStr (intToString z) = some z := by
  unfold intToString intFromStr
  by_cases hz : z < 0
  · rw [if_pos hz, List.cons_append, List.nil_append, List.foldlM_cons]
    have : intStep (none, none) 45 = some (some true, none) := by decide
    rw [this]
    show (match (decLE (z.natAbs + 1) z.natAbs).reverse.foldlM intStep (some true, none) with
      | some (sign, some n) => some (if sign = some true then -(n : Int) else n)
      | _ => none) = _
    rw [decLE_foldlM]
    show some (-(z.natAbs : Int)) = _
    congr 1; omega
  · rw [if_neg hz, List.nil_append, decLE_foldlM]
    show some (z.natAbs : Int) = _
    congr 1; omega

theorem u64LE_length (n : Nat) : (u64LE n).length = 8 := by simp [u64LE]

theorem leNat_u64LE (n : Nat) (h : n < 2 ^ 64) : leNat (u64LE n) = n := by
  have hb : ∀ m, (UInt8.ofNat (m % 256)).toNat = m % 256 := fun m => by
    rw [UInt8.toNat_ofNat']; omega
  simp only [u64LE, List.range, List.range.loop, List.map_cons, List.map_nil, leNat, hb]
  omega

theorem readField_append (s rest : Bytes) (h : s.length < 2 ^ 64) :
    readField (u64LE s.length ++ s ++ rest) = some (s, rest) := by
  unfold readField
  have h8 := u64LE_length s.length
  rw [if_neg (by simp [h8])]
  have e1 : (u64LE s.length ++ s ++ rest).take 8 = u64LE s.length := by
    rw [List.append_assoc, ← h8, List.take_left]
  have e2 : (u64LE s.length ++ s ++ rest).drop 8 = s ++ rest := by
    rw [List.append_assoc, ← h8, List.drop_left]
  simp only [e1, e2, leNat_u64LE _ h]
  rw [if_neg (by simp), List.take_left, List.drop_left]

/-- Loading after saving returns the saved key and iv, whatever the file held before.  The
bounds say that the lengths fit into the 64-bit prefixes. -/
theorem C17_load_save (old : Bytes) (key : Int) (iv : Bytes) (hk : (intToString key).length < 2 ^ 64)
    (hi : iv.length < 2 ^ 64) : loadData (saveData old key iv) = .ok (key, iv) := by
  have e : saveData old key iv = u64LE (intToString key).length ++ intToString key ++
      (u64LE iv.length ++ iv ++ old.drop (pubDataBytes key iv).length) := by
    unfold saveData writeAt
    simp only [List.take_zero, Nat.zero_sub, Nat.zero_add]
    show [] ++ zeros 0 ++ pubDataBytes key iv ++ _ = _
    unfold pubDataBytes zeros
    simp [List.append_assoc]
  unfold loadData
  rw [e, readField_append _ _ hk]
  simp only []
  rw [readField_append _ _ hi]
  simp only [intFromStr_toString]

/-- The number of characters of a key is its number of decimal digits (and a sign). -/
theorem C17_key_length (key : Int) (k : Nat) (hk : 0 < k) (h : key.natAbs < 10 ^ k) :
    (intToString key).length ≤ k + 1 := by
  have : ∀ fuel n k, 0 < k → n < 10 ^ k → (decLE fuel n).length ≤ k := by
    intro fuel
    induction fuel with
    | zero => intros; simp [decLE]
    | succ fuel ih =>
      intro n k hk hn
      unfold decLE
      rw [List.length_cons]
      split
      · simp; omega
      · next hne =>
        cases k with
        | zero => omega
        | succ k =>
          have hk1 : 0 < k := by
            rcases Nat.eq_zero_or_pos k with rfl | h
            · simp at hn; omega
            · exact h
          have := ih (n / 10) k hk1 (by rw [Nat.pow_succ] at hn; omega)
          omega
  have h1 := this (key.natAbs + 1) key.natAbs k hk h
  unfold intToString
  rw [List.length_append, List.length_reverse]
  split <;> simp <;> omega

/-- In particular for every modulus `prepare_params` can choose and every iv it draws. -/
theorem C17_shipped (old : Bytes) (unitPl : Nat) (rng : Nat → UInt8) :
    loadData (saveData old (prepareParams unitPl rng).1 (prepareParams unitPl rng).2) =
      .ok (prepareParams unitPl rng) := by
  refine C17_load_save old _ _ ?_ (by simp [prepareParams])
  have : (intToString (prepareKey unitPl)).length ≤ 1000 + 1 := by
    refine C17_key_length _ 1000 (by norm_num) ?_
    unfold prepareKey
    split
    · decide +kernel
    · split
      · decide +kernel
      · split <;> decide +kernel
  show (intToString (prepareKey unitPl)).length < 2 ^ 64
  omega

/-- Shorter data over longer old content: the stale tail is really there. -/
example : (saveData (zeros 100) (-12) [7, 8]).length = 100 ∧
    loadData (saveData (zeros 100) (-12) [7, 8]) = .ok (-12, [7, 8]) :=
  ⟨by decide, C17_load_save _ _ _ (by decide) (by decide)⟩

/-! ### C34: the modulus against the unit length -/

/-- The chosen modulus exceeds every plaintext unit and fits into a padded unit exactly for
padded unit lengths 64, 128 and 256. -/
theorem C34_fits_iff (unitPl : Nat) (h : 0 < unitPl) :
    ((256 : Int) ^ (unitPl - 1) ≤ prepareKey unitPl ∧ prepareKey unitPl ≤ 256 ^ unitPl) ↔
      unitPl = 64 ∨ unitPl = 128 ∨ unitPl = 256 := by
  have hlo : (256 : Int) ^ 127 < P_1024 := by decide +kernel
  have hhi : P_1024 < (256 : Int) ^ 128 := by decide +kernel
  constructor
  · rintro ⟨h1, h2⟩
    by_cases a : unitPl = 64
    · exact Or.inl a
    by_cases b : unitPl = 128
    · exact Or.inr (Or.inl b)
    by_cases d : unitPl = 256
    · exact Or.inr (Or.inr d)
    exfalso
    have hk : prepareKey unitPl = P_1024 := by
      unfold prepareKey
      rw [if_neg (by omega), if_neg (by omega), if_neg (by omega)]
    rw [hk] at h1 h2
    rcases Nat.lt_or_ge unitPl 128 with hlt | hge
    · have : (256 : Int) ^ unitPl ≤ 256 ^ 127 := pow_le_pow_right₀ (by norm_num) (by omega)
      exact absurd (lt_of_lt_of_le hlo (le_trans h2 this)) (lt_irrefl _)
    · have : (256 : Int) ^ 128 ≤ 256 ^ (unitPl - 1) := pow_le_pow_right₀ (by norm_num) (by omega)
      exact absurd (lt_of_le_of_lt (le_trans this h1) hhi) (lt_irrefl _)
  · rintro (rfl | rfl | rfl)
    · exact ⟨by decide +kernel, by decide +kernel⟩
    · exact ⟨by decide +kernel, by decide +kernel⟩
    · exact ⟨by decide +kernel, by decide +kernel⟩

/-- For every longer padded unit (other than 256) two different plaintext units receive the
same sealed value under every mask: data is lost. -/
theorem C34_long_units_collide (unitPl : Nat) (h : 128 < unitPl) (hne : unitPl ≠ 256) :
    ∃ x y : Bytes, x.length = unitPl - 1 ∧ y.length = unitPl - 1 ∧ x ≠ y ∧
      ∀ mask, modadd (x ++ [0]) mask (prepareKey unitPl) = modadd (y ++ [0]) mask (prepareKey unitPl) := by
  have hk : prepareKey unitPl = P_1024 := by
    unfold prepareKey
    rw [if_neg (by omega), if_neg (by omega), if_neg (by omega)]
  have hl : (toLE P_1024.natAbs).length = 128 := by decide +kernel
  have hz : ∀ k, leNat (zeros k) = 0 := by
    intro k
    induction k with
    | zero => rfl
    | succ k ih =>
      have : zeros (k + 1) = 0 :: zeros k := by unfold zeros; rw [List.replicate_succ]
      rw [this, leNat, ih]; rfl
  have hv : leNat (toLE P_1024.natAbs) = P_1024.natAbs := by decide +kernel
  refine ⟨zeros (unitPl - 1), toLE P_1024.natAbs ++ zeros (unitPl - 1 - 128), by simp [zeros], ?_, ?_, ?_⟩
  · rw [List.length_append, hl]; simp [zeros]; omega
  · intro e
    have := congrArg leNat e
    rw [hz, leNat_append, hz, hv] at this
    revert this
    norm_num [P_1024]
  · intro mask
    rw [hk]
    unfold modadd
    have hx : (leNat (zeros (unitPl - 1) ++ [0]) : Int) = 0 := by
      rw [leNat_append, hz]; rfl
    have hy : (leNat (toLE P_1024.natAbs ++ zeros (unitPl - 1 - 128) ++ [0]) : Int) = P_1024 := by
      rw [leNat_append, leNat_append, hz, hv]; simp [leNat, P_1024]
    have hlen : (zeros (unitPl - 1) ++ [0]).length =
        (toLE P_1024.natAbs ++ zeros (unitPl - 1 - 128) ++ [0]).length := by
      rw [List.length_append, List.length_append, List.length_append, hl]; simp [zeros]; omega
    have hm : (P_1024 + (leNat mask : Int)).tmod P_1024 = ((0 : Int) + (leNat mask : Int)).tmod P_1024 := by
      have hp : (0 : Int) ≤ P_1024 := by decide +kernel
      rw [Int.tmod_eq_emod_of_nonneg (by omega), Int.tmod_eq_emod_of_nonneg (by omega), zero_add,
        Int.add_emod_left]
    simp only [hx, hy, hlen, hm]

/-- For every shorter padded unit (other than 64) some unit grows when encoded: the sealed
unit has 128 bytes. -/
theorem C34_short_units_grow (unitPl : Nat) (h : 0 < unitPl) (hlt : unitPl < 128) (hne : unitPl ≠ 64) :
    ∃ x : Bytes, x.length = unitPl ∧ (Rug.vde x (prepareKey unitPl) 1 "sloth" unitPl).length = 128 := by
  have hk : prepareKey unitPl = P_1024 := by
    unfold prepareKey
    rw [if_neg (by omega), if_neg (by omega), if_neg (by omega)]
  have hz : ∀ k, leNat (zeros k) = 0 := by
    intro k
    induction k with
    | zero => rfl
    | succ k ih =>
      have : zeros (k + 1) = 0 :: zeros k := by unfold zeros; rw [List.replicate_succ]
      rw [this, leNat, ih]; rfl
  refine ⟨2 :: zeros (unitPl - 1), by simp [zeros]; omega, ?_⟩
  have hv : (leNat (2 :: zeros (unitPl - 1)) : Int) = 2 := by
    rw [leNat, hz]; rfl
  have hs : (toLE (Rug.sloth 2 P_1024 1).natAbs).length = 128 := by decide +kernel
  unfold Rug.vde
  simp only [hv, hk, if_true]
  rw [if_neg (by omega)]
  exact hs

/-! ### C04: honest rounds are accepted -/

/-- What the verifier compares: a block whose bytes are the padded plaintext passes. -/
theorem honest_block_verifies {params : PosPara} {p n c : Nat} (cfg : Config params p n c) {origin padded : Bytes}
    (hlen : origin.length = params.dataL) (hpad : copyAndPad origin params.dataL params.unitL = .ok padded)
    {k : Nat} (hk : k < n) {blk : List Bytes} (hl : blk.length = c) (hu : ∀ u ∈ blk, u.length = params.unitPl)
    (hf : blk.flatten = readFile padded (k * params.blockPl) params.blockPl) :
    batchVerify origin k blk params.blockL params.unitL = .ok () := by
  have hd : params.dataL = (n * c) * params.unitL := by rw [cfg.data, cfg.block, Nat.mul_assoc]
  obtain ⟨us, h1, h2, h3⟩ := exists_units origin params.unitL (n * c) (by rw [hlen, hd])
  have hpd := copyAndPad_eq cfg.unit_pos h2
  rw [h3, h1, ← hd, hpad] at hpd
  have hpd := Except.ok.inj hpd
  rw [batchVerify_iff cfg.unit_pos cfg.block]
  intro j hj
  have hidx : k * c + j < us.length := by
    rw [h1]
    have : (k + 1) * c ≤ n * c := Nat.mul_le_mul_right _ (by omega)
    rw [Nat.succ_mul] at this
    omega
  have hp : ∀ v ∈ padUnits us, v.length = params.unitPl := by
    intro v hv
    unfold padUnits at hv
    rw [List.mem_map] at hv
    obtain ⟨u, hu, rfl⟩ := hv
    simp [h2 u hu, cfg.unit_pl]
  refine ⟨blk[j], List.getElem?_eq_getElem (by omega), ?_⟩
  have e1 := flatten_drop_take blk params.unitPl j (by omega) hu []
  rw [List.append_nil, hf, readFile_readFile _ _ _ _ _ (by
    rw [cfg.block_pl]
    have : (j + 1) * params.unitPl ≤ c * params.unitPl := Nat.mul_le_mul_right _ (by omega)
    rw [Nat.succ_mul] at this
    exact this), hpd] at e1
  have e2 := flatten_drop_take (padUnits us) params.unitPl (k * c + j) (by simpa [padUnits] using hidx) hp []
  rw [List.append_nil] at e2
  have e3 : k * params.blockPl + j * params.unitPl = (k * c + j) * params.unitPl := by
    rw [cfg.block_pl]; ring
  rw [e3, e2] at e1
  have e4 := flatten_drop_take us params.unitL (k * c + j) hidx h2 []
  rw [List.append_nil, h3] at e4
  have e5 : k * params.blockL + j * params.unitL = (k * c + j) * params.unitL := by
    rw [cfg.block]; ring
  rw [e5, e4, ← e1]
  unfold padUnits
  rw [List.getElem_map, ← h2 _ (List.getElem_mem hidx), List.take_left]

/-- The loop of the prover: hash input, blocks, previous ids and dependencies. -/
theorem proverLoop_eq {H : Bytes → Bytes} {params : PosPara} {sealed : Bytes} {pr : Nat → Prepared}
    (idxs : List Nat) (h : ∀ k ∈ idxs, singleUnsealPrepare H params sealed k = .ok (pr k))
    (s : Bytes × List (List Bytes) × List Bytes × List (List (List Bytes))) :
    forEach idxs (fun idx2 (s : Bytes × List (List Bytes) × List Bytes × List (List (List Bytes))) => do
      let pr ← singleUnsealPrepare H params sealed idx2
      pure (s.1 ++ pr.block.flatten, s.2.1 ++ [pr.block], s.2.2.1 ++ [pr.beforeId], s.2.2.2 ++ [pr.dependBlocks])) s =
    .ok (s.1 ++ ((idxs.map fun k => (pr k).block).map List.flatten).flatten,
      s.2.1 ++ idxs.map (fun k => (pr k).block), s.2.2.1 ++ idxs.map (fun k => (pr k).beforeId),
      s.2.2.2 ++ idxs.map (fun k => (pr k).dependBlocks)) := by
  induction idxs generalizing s with
  | nil => simp [forEach]
  | cons a l ih =>
    rw [forEach_cons, h a (by simp)]
    simp only [bind_ok]
    show forEach l _ _ = _
    rw [ih (fun k hk => h k (by simp [hk]))]
    simp [List.append_assoc]

/-- The state of the parties before the challenges: an honestly sealed file, its public data
(written over any old content) and its Merkle tree. -/
structure Honest (H Hs : Bytes → Bytes) (params : PosPara) (p n c : Nat) (origin padded iv pubdata : Bytes)
    (st : SealState) (leaves : List Bytes) (tree : MerkleTree) (root : Bytes) : Prop where
  hash : ∀ x, (H x).length = 32
  hash' : ∀ x, (Hs x).length = 32
  cfg : Config params p n c
  rounds : 0 < params.sealRounds
  blocks : 0 < n
  len : origin.length = params.dataL
  pad : copyAndPad origin params.dataL params.unitL = .ok padded
  sealed : sealFile H params padded (p : Int) iv = .ok st
  nonzero : ∀ v ∈ st.log, v ≠ 0
  pub : ∃ old, pubdata = saveData old (p : Int) iv
  key_len : (intToString (p : Int)).length < 2 ^ 64
  iv_len : iv.length < 2 ^ 64
  merkle : generateMerkleTreeFromData Hs st.ids = .ok (leaves, tree, root)

theorem sealFile_ids_length {H : Bytes → Bytes} (hH : ∀ x, (H x).length = 32) {params : PosPara} {p n c : Nat}
    (cfg : Config params p n c) {file iv : Bytes} (hlen : n * params.blockPl ≤ file.length)
    (hu : UnitsBelow params p n c file) {st : SealState}
    (h : sealFile H params file (p : Int) iv = .ok st) : st.ids.length = n := by
  rw [sealFile_eq cfg] at h
  obtain ⟨L, S, hL, hS, hrun⟩ := sealPrefix_eq cfg h
  have h0 : SealInv H params p n c file 0 { file := file, ids := List.replicate n [], log := [] } :=
    sealInv_zero (fun i hi => hu.blockOk cfg.layout hi)
  obtain ⟨hfin, -, -⟩ := seal_trace hH cfg.keyOk cfg.layout (idxsSOf_shortOk hS) hlen h0 (Nat.le_refl n) hrun
  exact hfin.ids_len

/-- One round: for every challenged set of blocks the prover answers, and the verifier accepts —
sequentially, and in parallel under every complete schedule; there is a complete one. -/
theorem C04_round {H Hs : Bytes → Bytes} {params : PosPara} {p n c : Nat} {origin padded iv pubdata : Bytes}
    {st : SealState} {leaves : List Bytes} {tree : MerkleTree} {root : Bytes}
    (hon : Honest H Hs params p n c origin padded iv pubdata st leaves tree root)
    (r : UInt8) (indices : List Nat) (hs : indices.Pairwise (· < ·)) (hne : indices ≠ [])
    (hlt : ∀ k ∈ indices, k < n) :
    ∃ resp, proverRespond H params st.file tree r indices = .ok resp ∧
      (∀ sched, verifierCheck H Hs params origin pubdata leaves root r indices resp 0 sched = .ok (some ())) ∧
      ∀ workers, 0 < workers →
        (∀ sched, verifierCheck H Hs params origin pubdata leaves root r indices resp workers sched = .ok (some ()) ∨
          (batchUnsealParallel H params indices resp.blocks resp.beforeIds resp.dependBlocks (p : Int) iv workers
              sched = .ok none ∧
            verifierCheck H Hs params origin pubdata leaves root r indices resp workers sched = .ok none)) ∧
        ∃ sched, verifierCheck H Hs params origin pubdata leaves root r indices resp workers sched = .ok (some ()) := by
  obtain ⟨pd, g1, g2, g3, -⟩ := padded_unitsBelow hon.cfg hon.len
  rw [hon.pad] at g1
  cases g1
  have hids := sealFile_ids_length hon.hash hon.cfg (by omega) g3 hon.sealed
  obtain ⟨pr, outs, q1, q2, q3, q4⟩ := C03_random_access H hon.hash params p n c hon.cfg hon.rounds padded iv
    (by omega) g3 st hon.sealed hon.nonzero indices hne hlt
  obtain ⟨lv, tr, ro, proof, m1, -, m2, m3⟩ := C31_completeness Hs hon.hash' st.ids
    (by intro h; rw [h] at hids; have := hon.blocks; simp at hids; omega) indices hs hne
    (fun k hk => by rw [hids]; exact hlt k hk)
  rw [hon.merkle] at m1
  cases m1
  obtain ⟨old, hpub⟩ := hon.pub
  have hload : loadData pubdata = .ok ((p : Int), iv) := by
    rw [hpub]; exact C17_load_save old _ _ hon.key_len hon.iv_len
  set blocks := indices.map fun k => (pr k).block with hblocks
  set befores := indices.map fun k => (pr k).beforeId with hbefores
  set deps := indices.map fun k => (pr k).dependBlocks with hdeps
  have hresp : proverRespond H params st.file tree r indices =
      .ok ⟨H (responseBytes r blocks), blocks, befores, deps, proof⟩ := by
    unfold proverRespond
    rw [proverLoop_eq indices q1]
    simp only [bind_ok]
    rw [m2]
    rfl
  refine ⟨_, hresp, ?_⟩
  -- the comparison loop on plaintext blocks
  have hcmp : ∀ out : List (List Bytes), out.length = indices.length →
      (∀ (i k : Nat) (o : List Bytes), indices[i]? = some k → out[i]? = some o →
        o.flatten = readFile padded (k * params.blockPl) params.blockPl ∧ o.length = c ∧
        ∀ u ∈ o, u.length = params.unitPl) →
      forUp indices.length (fun i (_ : Unit) => do
        let k ← at! indices i
        let b ← at! out i
        batchVerify origin k b params.blockL params.unitL) () = .ok () := by
    intro out hol ho
    rw [forUp_unit_iff (f := fun i => do
        let k ← at! indices i
        let b ← at! out i
        batchVerify origin k b params.blockL params.unitL)]
    intro i hi
    rw [at!_of_lt hi, bind_ok, at!_of_lt (by omega), bind_ok]
    obtain ⟨f1, f2, f3⟩ := ho i _ _ (List.getElem?_eq_getElem hi) (List.getElem?_eq_getElem (by omega))
    exact honest_block_verifies hon.cfg hon.len hon.pad (hlt _ (List.getElem_mem hi)) f2 f3 f1
  constructor
  · intro sched
    unfold verifierCheck
    simp only []
    rw [if_neg (by simp), m3, bind_ok, hload, bind_ok]
    simp only [if_true, q2, bind_ok]
    show (do
      forUp indices.length _ ()
      pure (some ())) = _
    rw [hcmp outs q3 q4]
    rfl
  · intro workers hw
    have hstep : ∀ sched,
        (∃ outs, batchUnsealParallel H params indices blocks befores deps (p : Int) iv workers sched = .ok (some outs)) →
        verifierCheck H Hs params origin pubdata leaves root r indices
          ⟨H (responseBytes r blocks), blocks, befores, deps, proof⟩ workers sched = .ok (some ()) := by
      rintro sched ⟨o, ho⟩
      obtain ⟨pr', w1, w2⟩ := C05_honest H hon.hash params p n c hon.cfg hon.rounds padded iv (by omega) g3 st
        hon.sealed hon.nonzero indices hlt workers
      have hpr : ∀ k ∈ indices, pr' k = pr k := by
        intro k hk
        have := w1 k hk
        rw [q1 k hk] at this
        exact (Except.ok.inj this).symm
      have e1 : (indices.map fun k => (pr' k).block) = blocks := List.map_congr_left (fun k hk => by rw [hpr k hk])
      have e2 : (indices.map fun k => (pr' k).beforeId) = befores := List.map_congr_left (fun k hk => by rw [hpr k hk])
      have e3 : (indices.map fun k => (pr' k).dependBlocks) = deps := List.map_congr_left (fun k hk => by rw [hpr k hk])
      rw [e1, e2, e3] at w2
      obtain ⟨x1, x2⟩ := w2 sched o ho
      unfold verifierCheck
      simp only []
      rw [if_neg (by simp), m3, bind_ok, hload, bind_ok, if_neg (by omega)]
      simp only [ho, bind_ok]
      rw [hcmp o x1 x2]
      rfl
    have hS : ∃ S, parIdxsS params = .ok S := by
      obtain ⟨L, S, hL, hS, -⟩ := sealPrefix_eq hon.cfg (by rw [← sealFile_eq hon.cfg]; exact hon.sealed)
      refine ⟨S, ?_⟩
      rw [← hS]
      unfold parIdxsS idxsSOf
      rw [hon.cfg.div]
      rfl
    obtain ⟨S, hS⟩ := hS
    constructor
    · intro sched
      cases hb : batchUnsealParallel H params indices blocks befores deps (p : Int) iv workers sched with
      | error e =>
        exfalso
        rcases (C06_only_two_panics H params indices blocks befores deps (p : Int) iv workers sched).mp ⟨e, hb⟩ with
          ⟨e, he⟩ | h
        · rw [hS] at he; cases he
        · omega
      | ok o =>
        cases o with
        | some o => exact Or.inl (hstep sched ⟨o, hb⟩)
        | none =>
          right
          refine ⟨rfl, ?_⟩
          unfold verifierCheck
          simp only []
          rw [if_neg (by simp), m3, bind_ok, hload, bind_ok, if_neg (by omega)]
          simp only [hb, bind_ok]
          rfl
    · obtain ⟨-, rest, o, ho⟩ := C05_terminates H params indices blocks befores deps (p : Int) iv workers hw S hS []
        ⟨blocks, List.replicate blocks.length .waiting⟩ rfl
      exact ⟨[] ++ rest, hstep _ ⟨o, ho⟩⟩

/-! #### the whole pipeline -/

theorem runRounds_total {round : RoundChoices → R (Option Unit)} (chs : List RoundChoices)
    (h : ∀ ch ∈ chs, round ch = .ok (some ()) ∨ round ch = .ok none) :
    runRounds round chs = .ok (some ()) ∨ runRounds round chs = .ok none := by
  induction chs with
  | nil => exact Or.inl rfl
  | cons ch chs ih =>
    unfold runRounds
    rcases h ch (by simp) with e | e
    · rw [e, bind_ok]
      exact ih (fun c hc => h c (by simp [hc]))
    · rw [e, bind_ok]
      exact Or.inr rfl

theorem runRounds_all {round : RoundChoices → R (Option Unit)} (chs : List RoundChoices)
    (h : ∀ ch ∈ chs, round ch = .ok (some ())) : runRounds round chs = .ok (some ()) := by
  induction chs with
  | nil => rfl
  | cons ch chs ih =>
    unfold runRounds
    rw [h ch (by simp), bind_ok]
    exact ih (fun c hc => h c (by simp [hc]))

/-- A round of the loop with drawn challenges. -/
theorem challengeRound_eq {H Hs : Bytes → Bytes} {params : PosPara} {p n c : Nat} {origin padded iv pubdata : Bytes}
    {st : SealState} {leaves : List Bytes} {tree : MerkleTree} {root : Bytes}
    (hon : Honest H Hs params p n c origin padded iv pubdata st leaves tree root)
    (count : Nat) (hc : 0 < count) (ch : RoundChoices) :
    (createChallenges ch.draw count 0 n ch.fuel = .ok none ∧ ∀ workers,
      challengeRound H Hs params origin st.file pubdata leaves tree root count workers ch = .ok none) ∨
    ((∀ sched, challengeRound H Hs params origin st.file pubdata leaves tree root count 0 { ch with sched := sched } =
        .ok (some ())) ∧
      ∀ workers, 0 < workers →
        (challengeRound H Hs params origin st.file pubdata leaves tree root count workers ch = .ok (some ()) ∨
          challengeRound H Hs params origin st.file pubdata leaves tree root count workers ch = .ok none) ∧
        ∃ sched, challengeRound H Hs params origin st.file pubdata leaves tree root count workers
          { ch with sched := sched } = .ok (some ())) := by
  have hdiv : div! params.dataL params.blockL = .ok n := hon.cfg.div
  cases hcc : createChallenges ch.draw count 0 n ch.fuel with
  | error e =>
    exfalso
    unfold createChallenges at hcc
    rw [if_neg (by have := hon.blocks; omega)] at hcc
    cases hcc
  | ok o =>
    cases o with
    | none =>
      left
      refine ⟨rfl, fun workers => ?_⟩
      unfold challengeRound
      rw [hdiv, bind_ok, hcc, bind_ok]
      rfl
    | some indices =>
      right
      obtain ⟨h1, h2, h3⟩ := C24_sorted_distinct ch.draw count 0 n ch.fuel indices hcc
      obtain ⟨resp, r1, r2, r3⟩ := C04_round hon ch.r indices h1
        (by intro h; rw [h] at h2; simp at h2; omega) (fun k hk => (h3 k hk).2)
      have e : ∀ workers sched, challengeRound H Hs params origin st.file pubdata leaves tree root count workers
          { ch with sched := sched } =
          verifierCheck H Hs params origin pubdata leaves root ch.r indices resp workers sched := by
        intro workers sched
        unfold challengeRound
        rw [hdiv, bind_ok]
        simp only [hcc, bind_ok]
        rw [r1, bind_ok]
      refine ⟨fun sched => by rw [e]; exact r2 sched, fun workers hw => ⟨?_, ?_⟩⟩
      · have e' := e workers ch.sched
        rw [show ({ ch with sched := ch.sched } : RoundChoices) = ch from rfl] at e'
        rw [e']
        rcases (r3 workers hw).1 ch.sched with h | h
        · exact Or.inl h
        · exact Or.inr h.2
      · obtain ⟨sched, hs⟩ := (r3 workers hw).2
        exact ⟨sched, by rw [e]; exact hs⟩

/-- The whole of `test_pipeline` for the shipped parameter sets, any origin file, any number of
rounds, any (non-zero) number of challenges per round, any draws in range: it never panics; it
accepts when the draws finish, sequentially and, with suitable schedules, in parallel.  (That
every complete schedule accepts is `C04_round`.) -/
theorem C04_pipeline (H Hs : Bytes → Bytes) (hH : ∀ x, (H x).length = 32) (hHs : ∀ x, (Hs x).length = 32)
    (l : Nat) (origin old : Bytes) (hlen : origin.length = (genPosdata l).dataL) (rng : Nat → UInt8)
    (hz : ∀ padded, copyAndPad origin (genPosdata l).dataL (genPosdata l).unitL = .ok padded →
      NoZeroInput H (genPosdata l) padded P_512 ((List.range 128).map rng))
    (count : Nat) (hc : 0 < count) (choices : List RoundChoices) :
    (∀ workers, pipeline H Hs (genPosdata l) origin old rng count workers choices = .ok (some ()) ∨
      pipeline H Hs (genPosdata l) origin old rng count workers choices = .ok none) ∧
    ((∀ ch ∈ choices, ∃ s, createChallenges ch.draw count 0 256 ch.fuel = .ok (some s)) →
      pipeline H Hs (genPosdata l) origin old rng count 0 choices = .ok (some ()) ∧
      ∀ workers, 0 < workers → ∃ scheds : RoundChoices → List Nat,
        pipeline H Hs (genPosdata l) origin old rng count workers
          (choices.map fun ch => { ch with sched := scheds ch }) = .ok (some ())) := by
  obtain ⟨c, hcb, cfg, hL, hS⟩ := genPosdata_config l _ prime_P_512 (by norm_num) (by norm_num) (by norm_num)
  obtain ⟨padded, st, g1, g2, g3, g4, g5⟩ := C02_shipped_P512 H hH l origin ((List.range 128).map rng) hlen
  obtain ⟨u1, u2⟩ := C01_round_trip H hH _ _ 256 c cfg hL origin hlen _ padded st g1 g2 (hz padded g1 st g2)
  obtain ⟨leaves, tree, root, proof, m1, -, -, -⟩ := C31_completeness Hs hHs st.ids
    (by intro h; rw [h] at g4; simp at g4) [0] (by simp) (by simp) (by simp [g4])
  have hkey : prepareParams (genPosdata l).unitPl rng = (P_512, (List.range 128).map rng) := by
    have : (genPosdata l).unitPl = 64 := by
      unfold genPosdata; split
      · rfl
      · split
        · rfl
        · split <;> rfl
    rw [this]; rfl
  have hbl : 0 < (genPosdata l).blockL := by
    rw [cfg.block]; exact Nat.mul_pos cfg.c_pos cfg.unit_pos
  have hdl : 0 < (genPosdata l).dataL := by
    rw [cfg.data]; exact Nat.mul_pos (by norm_num) hbl
  obtain ⟨ot, oroot, o1⟩ := C30_leaves Hs origin (genPosdata l).dataL (genPosdata l).blockL hbl hdl
  have hon : Honest H Hs (genPosdata l) _ 256 c origin padded ((List.range 128).map rng)
      (saveData old P_512 ((List.range 128).map rng)) st leaves tree root :=
    { hash := hH, hash' := hHs, cfg := cfg
      rounds := by
        unfold genPosdata; split
        · norm_num
        · split
          · norm_num
          · split <;> norm_num
      blocks := by norm_num
      len := hlen, pad := g1, sealed := g2, nonzero := hz padded g1 st g2
      pub := ⟨old, rfl⟩
      key_len := by
        have : (intToString P_512).length ≤ 1000 + 1 := by
          refine C17_key_length _ 1000 (by norm_num) ?_
          decide +kernel
        show (intToString P_512).length < 2 ^ 64
        omega
      iv_len := by simp
      merkle := m1 }
  have hpipe : ∀ workers chs, pipeline H Hs (genPosdata l) origin old rng count workers chs =
      (runRounds (challengeRound H Hs (genPosdata l) origin st.file
        (saveData old P_512 ((List.range 128).map rng)) leaves tree root count workers) chs) := by
    intro workers chs
    have u1' : unsealFile H (genPosdata l) st.file P_512 ((List.range 128).map rng) = .ok padded := u1
    unfold pipeline
    rw [o1, bind_ok, g1, bind_ok]
    simp only [hkey]
    rw [g2, bind_ok, m1, bind_ok]
    cases hrun : runRounds (challengeRound H Hs (genPosdata l) origin st.file
        (saveData old P_512 ((List.range 128).map rng)) leaves tree root count workers) chs with
    | error e => rfl
    | ok a =>
      cases a with
      | none => rfl
      | some a =>
        simp only [bind_ok]
        rw [u1', bind_ok, u2, bind_ok, o1, bind_ok, if_pos rfl]
        rfl
  constructor
  · intro workers
    rw [hpipe]
    refine runRounds_total _ (fun ch hch => ?_)
    rcases challengeRound_eq hon count hc ch with ⟨-, h⟩ | ⟨h1, h2⟩
    · exact Or.inr (h workers)
    · rcases Nat.eq_zero_or_pos workers with rfl | hw
      · exact Or.inl (h1 ch.sched)
      · exact (h2 workers hw).1
  · intro hfin
    have hch := fun ch (h : ch ∈ choices) => (challengeRound_eq hon count hc ch).resolve_left (by
      rintro ⟨h1, -⟩
      · obtain ⟨s, hs⟩ := hfin ch h
        rw [hs] at h1; cases h1)
    refine ⟨?_, fun workers hw => ?_⟩
    · rw [hpipe]
      exact runRounds_all _ (fun ch h => (hch ch h).1 ch.sched)
    · classical
      have : ∀ ch, ∃ sched, ch ∈ choices → challengeRound H Hs (genPosdata l) origin st.file
          (saveData old P_512 ((List.range 128).map rng)) leaves tree root count workers
          { ch with sched := sched } = .ok (some ()) := by
        intro ch
        by_cases h : ch ∈ choices
        · obtain ⟨sched, hs⟩ := ((hch ch h).2 workers hw).2
          exact ⟨sched, fun _ => hs⟩
        · exact ⟨[], fun h' => absurd h' h⟩
      choose scheds hsch using this
      refine ⟨scheds, ?_⟩
      rw [hpipe]
      refine runRounds_all _ (fun ch h => ?_)
      obtain ⟨ch', h1, rfl⟩ := List.mem_map.mp h
      exact hsch ch' h1

/-- A complete small round: seal, commit, challenge blocks 0 and 2, accept; a single changed
byte in the origin file makes the verifier panic. -/
example : (match copyAndPad (toyFile 189) 189 63 with
    | .ok padded => (match sealFile toyHash (toyParams 3 1 0 0 1 1 1) padded P_512 [1, 2, 3] with
      | .ok st => (match generateMerkleTreeFromData toyHash st.ids with
        | .ok (leaves, tree, root) =>
          decide (challengeRound toyHash toyHash (toyParams 3 1 0 0 1 1 1) (toyFile 189) st.file
              (saveData (zeros 300) P_512 [1, 2, 3]) leaves tree root 2 0 ⟨7, fun i => 2 * i % 3, 4, []⟩ = .ok (some ())
            ∧ (∀ v ∈ st.log, v ≠ 0)
            ∧ challengeRound toyHash toyHash (toyParams 3 1 0 0 1 1 1) ((toyFile 189).set 130 77) st.file
              (saveData (zeros 300) P_512 [1, 2, 3]) leaves tree root 2 0 ⟨7, fun i => 2 * i % 3, 4, []⟩ =
              .error .assertion)
        | .error _ => false)
      | .error _ => false)
    | .error _ => false) = true := by decide +kernel

/-! ### C59: acceptance does not depend on the sealed file -/

/-- The verifier of a round never compares the submitted blocks with the committed
identifiers.  Whoever holds the origin file, the public iv and the Merkle tree (built from any
list of `n` identifiers whatsoever) can invent, for each challenged block, previous identifier
and dependency blocks, encode the plaintext under them, and is accepted (proviso: no encoder
input was zero). -/
theorem C59_round_without_sealed_file (H Hs : Bytes → Bytes) (hH : ∀ x, (H x).length = 32)
    (hHs : ∀ x, (Hs x).length = 32) (params : PosPara) (p n c : Nat) (cfg : Config params p n c)
    (hS : params.modeS = 0) (hc : ShortCountOk c params.cntS) (origin iv old : Bytes)
    (hkl : (intToString (p : Int)).length < 2 ^ 64) (hil : iv.length < 2 ^ 64)
    (ids : List Bytes) (hids : ids.length = n) (leaves : List Bytes) (tree : MerkleTree) (root : Bytes)
    (hm : generateMerkleTreeFromData Hs ids = .ok (leaves, tree, root))
    (indices : List Nat) (hs : indices.Pairwise (· < ·)) (hne : indices ≠ []) (hlt : ∀ k ∈ indices, k < n)
    (before : Nat → Bytes) (deps : Nat → List (List Bytes)) (hdeps : ∀ k, ∀ d ∈ deps k, d.length = c) (r : UInt8) :
    ∃ (plain block : Nat → List Bytes) (log : Nat → List Nat), (∀ k, plain k =
        (List.range c).map (fun j => readFile origin (k * params.blockL + j * params.unitL) params.unitL ++ [0])) ∧
      (∀ k, sealRoundsLoop H params (p : Int) iv [] (List.replicate k (before k)) (deps k) c k
        (plain k, []) = .ok (block k, log k)) ∧
      ((∀ k ∈ indices, ∀ v ∈ log k, v ≠ 0) → ∃ resp : Response,
        resp.blocks = indices.map block ∧ resp.beforeIds = indices.map before ∧
        resp.dependBlocks = indices.map deps ∧
        verifierCheck H Hs params origin (saveData old (p : Int) iv) leaves root r indices resp 0 [] =
          .ok (some ())) := by
  have hex := fun k => invented_block hH cfg hS hc origin iv k (deps k) (hdeps k) (before k)
  choose plain block log h0 h1 h2 h3 h4 using hex
  refine ⟨plain, block, log, h0, h1, fun hlog => ?_⟩
  have hidne : ids ≠ [] := by
    rintro rfl
    cases indices with
    | nil => exact hne rfl
    | cons a l => have := hlt a (by simp); simp at hids; omega
  obtain ⟨lv, tr, ro, proof, m1, -, m2, m3⟩ := C31_completeness Hs hHs ids hidne indices hs hne
    (fun k hk => by rw [hids]; exact hlt k hk)
  rw [hm] at m1
  cases m1
  have hT' : batchIdxsS params = .ok [] := by
    unfold batchIdxsS; rw [if_neg (by simp [hS])]; rfl
  have hun : batchUnseal H params indices (indices.map block) (indices.map before) (indices.map deps) (p : Int) iv =
      .ok (indices.map plain) := by
    refine batchUnseal_eq hT' (by simp) (by simp) (by simp) (by simp) ?_
    intro i hi
    simp only [List.getElem_map]
    rw [h2]
    exact h3 _ (hlog _ (List.getElem_mem hi))
  refine ⟨⟨H (responseBytes r (indices.map block)), indices.map block, indices.map before, indices.map deps, proof⟩,
    rfl, rfl, rfl, ?_⟩
  unfold verifierCheck
  simp only []
  rw [if_neg (by simp), m3, bind_ok, C17_load_save old _ _ hkl hil, bind_ok]
  simp only [if_true, hun, bind_ok]
  show (do
    forUp indices.length _ ()
    pure (some ())) = _
  rw [(forUp_unit_iff (f := fun i => do
        let k ← at! indices i
        let b ← at! (indices.map plain) i
        batchVerify origin k b params.blockL params.unitL)).mpr]
  · rfl
  · intro i hi
    rw [at!_of_lt hi, bind_ok, at!_of_lt (by simpa using hi), bind_ok, List.getElem_map]
    exact h4 _

/-- A prover who never sealed anything: the tree is over the identifiers `[9]` and `[8]`, the previous
identifier `[42]` and the dependency block are invented, and the round on block 1 is accepted. -/
example :
    let params := toyParams 2 1 0 0 1 1 1
    let plain := [readFile (toyFile 126) 63 63 ++ [0]]
    (match generateMerkleTreeFromData toyHash [[9], [8]],
        sealRoundsLoop toyHash params P_512 [1, 2, 3] [] [[42]] [[[1]]] 1 1 (plain, []) with
      | .ok (leaves, tree, root), .ok (block, log) => (match generateMerkleProof [1] tree with
        | .ok proof => decide ((∀ v ∈ log, v ≠ 0) ∧
          verifierCheck toyHash toyHash params (toyFile 126) (saveData (zeros 300) P_512 [1, 2, 3]) leaves root 7 [1]
            ⟨toyHash (7 :: block.flatten), [block], [[42]], [[[[1]]]], proof⟩ 0 [] = .ok (some ()))
        | .error _ => false)
      | _, _ => false) = true := by decide +kernel

end PoS
