import Verif.Properties.Retrieval

/-
The role of the initial vector: C87 (it only matters for the first block when unsealing and
verifying), C88 (copies sealed with different initial vectors).
-/

namespace PoS

/-! ### C87: the initial vector and the first block -/

/-- Unsealing any file with two initial vectors gives the same from the second block on. -/
theorem C87_unseal (H : Bytes → Bytes) (hH : ∀ x, (H x).length = 32) (params : PosPara)
    (p n c : Nat) (cfg : Config params p n c) (hL : LongModeOk params n) (hS : ShortModeOk params n c)
    (file iv iv' : Bytes) (hlen : n * params.blockPl ≤ file.length) :
    ∃ out out', unsealFile H params file (p : Int) iv = .ok out ∧ unsealFile H params file (p : Int) iv' = .ok out' ∧
      out.length = out'.length ∧ ∀ i, params.blockPl ≤ i → out[i]? = out'[i]? := by
  obtain ⟨o, e1, e2, e3, e4⟩ := C79_unseal_exact H hH params p n c cfg hL hS file iv hlen
    (sealingOf H params p c iv (unsealLongOf H params n) (shortOf H params n c)) ⟨rfl, rfl, rfl, rfl, rfl, rfl, rfl, rfl⟩
  obtain ⟨o', f1, f2, f3, f4⟩ := C79_unseal_exact H hH params p n c cfg hL hS file iv' hlen
    (sealingOf H params p c iv' (unsealLongOf H params n) (shortOf H params n c)) ⟨rfl, rfl, rfl, rfl, rfl, rfl, rfl, rfl⟩
  have hupl : 0 < params.unitPl := by rw [cfg.unit_pl]; omega
  have hbp : 0 < params.blockPl := by rw [cfg.block_pl]; exact Nat.mul_pos cfg.c_pos hupl
  refine ⟨o, o', e1, f1, by omega, fun i hi => ?_⟩
  by_cases hn : n * params.blockPl ≤ i
  · rw [e4 i hn, f4 i hn]
  · have hk : i / params.blockPl < n := (Nat.div_lt_iff_lt_mul hbp).mpr (by omega)
    have hk0 : i / params.blockPl ≠ 0 := by
      have := Nat.div_pos hi hbp
      omega
    have h : readFile o (i / params.blockPl * params.blockPl) params.blockPl =
        readFile o' (i / params.blockPl * params.blockPl) params.blockPl := by
      rw [e2 _ hk, f2 _ hk]
      unfold Sealing.unsealedBlock
      simp only
      rw [if_neg hk0, if_neg hk0]
      rfl
    have h := congrArg (fun l => l[i % params.blockPl]?) h
    simp only [readFile_getElem?] at h
    have hm := Nat.mod_lt i hbp
    rw [if_pos hm, if_pos hm, show i / params.blockPl * params.blockPl + i % params.blockPl = i by
      rw [Nat.mul_comm]; exact Nat.div_add_mod i _] at h
    have l1 : i < o.length := by omega
    have l2 : i < o'.length := by omega
    rw [List.getElem?_eq_getElem l1, List.getElem?_eq_getElem l2] at h ⊢
    simpa using h

/-- Someone who knows the sealed file and the modulus but not the initial vector recovers the whole
padded file except its first block. -/
theorem C87_recover (H : Bytes → Bytes) (hH : ∀ x, (H x).length = 32) (params : PosPara)
    (p n c : Nat) (cfg : Config params p n c) (hmode : params.modeL = 0) (hn : LongCountOk n params.cntL) (hS : ShortModeOk params n c)
    (origin iv iv' padded : Bytes) (hlen : origin.length = params.dataL) (st : SealState)
    (hpad : copyAndPad origin params.dataL params.unitL = .ok padded)
    (hseal : sealFile H params padded (p : Int) iv = .ok st) (hlog : ∀ v ∈ st.log, v ≠ 0) :
    ∃ out, unsealFile H params st.file (p : Int) iv' = .ok out ∧ out.length = padded.length ∧
      ∀ i, params.blockPl ≤ i → out[i]? = padded[i]? := by
  have hL : LongModeOk params n := ⟨fun _ => hn, fun h => by omega, fun h => by omega⟩
  obtain ⟨pd, g1, g2, g3, -⟩ := padded_unitsBelow cfg hlen
  rw [hpad] at g1
  cases g1
  obtain ⟨s, a1, -, -, a4, -⟩ := C64_seal_exact H hH params p n c cfg hL hS padded iv (by omega) g3
    (sealingOf H params p c iv (longOf H params n) (shortOf H params n c)) ⟨rfl, rfl, rfl, rfl, rfl, rfl, rfl, rfl, rfl⟩
  rw [hseal] at a1
  cases a1
  obtain ⟨o, o', e1, e2, e3, e4⟩ := C87_unseal H hH params p n c cfg hL hS st.file iv iv' (by omega)
  have := (C01_round_trip H hH params p n c cfg hmode origin hlen iv padded st hpad hseal hlog).1
  rw [this] at e1
  cases e1
  exact ⟨o', e2, by omega, fun i hi => (e4 i hi).symm⟩

theorem batchUnit_iv {H : Bytes → Bytes} {params : PosPara} {key : Int} (iv iv' : Bytes) {idxsS : List (List Nat)}
    {befores : List Bytes} {deps : List (List (List Bytes))} {m i k j : Nat} {cur : List Bytes} (hk : k ≠ 0) :
    batchUnit H params key iv idxsS befores deps m i k j cur = batchUnit H params key iv' idxsS befores deps m i k j cur := by
  unfold batchUnit
  simp only [if_neg hk]

theorem batchUnseal_iv {H : Bytes → Bytes} {params : PosPara} {key : Int} (iv iv' : Bytes)
    {idxs : List Nat} {blocks : List (List Bytes)} {befores : List Bytes} {deps : List (List (List Bytes))}
    (h0 : 0 ∉ idxs) :
    batchUnseal H params idxs blocks befores deps key iv = batchUnseal H params idxs blocks befores deps key iv' := by
  unfold batchUnseal
  congr 1
  funext t
  apply forUp_congr
  intro i _ bs
  congr 1
  unfold batchBlock
  cases hk : at! idxs i with
  | error e => rfl
  | ok k =>
    have hk0 : k ≠ 0 := by
      rintro rfl
      exact h0 (List.mem_of_getElem? (at!_eq_ok.mp hk))
    simp only [bind_ok]
    congr 1
    funext cur
    apply forUp_congr
    intro _ _ s
    apply forUp_congr
    intro j _ s
    simp only [batchUnit_iv iv iv' hk0]

theorem buv_iv {H : Bytes → Bytes} {params : PosPara} {key : Int} (iv iv' : Bytes) {origin : Bytes}
    {idxs : List Nat} {blocks : List (List Bytes)} {befores : List Bytes} {deps : List (List (List Bytes))}
    (h0 : 0 ∉ idxs) :
    batchUnsealAndVerify H params origin idxs blocks befores deps key iv =
      batchUnsealAndVerify H params origin idxs blocks befores deps key iv' := by
  unfold batchUnsealAndVerify
  congr 1
  funext t
  apply forUp_congr
  intro i _ _
  cases hk : at! idxs i with
  | error e => rfl
  | ok k =>
    have hk0 : k ≠ 0 := by
      rintro rfl
      exact h0 (List.mem_of_getElem? (at!_eq_ok.mp hk))
    simp only [bind_ok, if_neg hk0]

/-- Phases of tasks that work on blocks other than the first. -/
def NotFirst (ph : List Phase) : Prop := ∀ k cur r j, Phase.working k cur r j ∈ ph → k ≠ 0

theorem NotFirst.set {ph : List Phase} (h : NotFirst ph) {i : Nat} {x : Phase}
    (hx : ∀ k cur r j, x = .working k cur r j → k ≠ 0) : NotFirst (ph.set i x) := by
  intro k cur r j hm
  rcases List.mem_or_eq_of_mem_set hm with h' | h'
  · exact h k cur r j h'
  · exact hx k cur r j h'.symm

theorem parStep_iv {e : ParEnv} (iv' : Bytes) (h0 : 0 ∉ e.blocksIdx) {w i : Nat} {st : PState} (hst : NotFirst st.phase) :
    parStep e w i st = parStep { e with iv := iv' } w i st ∧ ∀ st', parStep e w i st = some st' → NotFirst st'.phase := by
  unfold parStep
  cases hp : st.phase[i]? with
  | none => exact ⟨rfl, fun _ h => by cases h⟩
  | some ph =>
    cases ph with
    | waiting =>
      refine ⟨rfl, fun st' h => ?_⟩
      simp only at h
      split at h
      · split at h
        · rename_i k cur hx
          cases h
          apply hst.set
          intro k' cur' r j he
          cases he
          rintro rfl
          obtain ⟨a, ha, hb⟩ := bind_eq_ok.mp hx
          obtain ⟨b, hb', hc⟩ := bind_eq_ok.mp hb
          cases hc
          exact h0 (List.mem_of_getElem? (at!_eq_ok.mp ha))
        · cases h
          exact hst.set (fun _ _ _ _ he => by cases he)
      · cases h
    | working k cur r j =>
      have hk0 : k ≠ 0 := hst k cur r j (List.mem_of_getElem? hp)
      have e1 : parUnit e.H e.params e.key e.iv e.idxsS e.beforeIds e.dependBlocks cur.length i k j cur =
          parUnit e.H e.params e.key iv' e.idxsS e.beforeIds e.dependBlocks cur.length i k j cur := by
        unfold parUnit
        simp only [if_neg hk0]
      refine ⟨?_, fun st' h => ?_⟩
      · simp only [e1]
      · simp only at h
        split at h
        · split at h
          · split at h
            · cases h
              exact hst.set (fun _ _ _ _ he => by cases he; exact hk0)
            · cases h
              exact hst.set (fun _ _ _ _ he => by cases he)
          · cases h
            exact hst.set (fun _ _ _ _ he => by cases he; exact hk0)
        · cases h
          exact hst.set (fun _ _ _ _ he => by cases he)
    | done => exact ⟨rfl, fun _ h => by cases h⟩
    | crashed => exact ⟨rfl, fun _ h => by cases h⟩

theorem parRun_iv {e : ParEnv} (iv' : Bytes) (h0 : 0 ∉ e.blocksIdx) {w : Nat} (sched : List Nat) {st : PState}
    (hst : NotFirst st.phase) : parRun e w sched st = parRun { e with iv := iv' } w sched st := by
  induction sched generalizing st with
  | nil => rfl
  | cons i is ih =>
    obtain ⟨h1, h2⟩ := parStep_iv (e := e) iv' h0 (w := w) (i := i) hst
    unfold parRun
    rw [← h1]
    cases hs : parStep e w i st with
    | none => rfl
    | some st' => exact ih (h2 st' hs)

theorem batchUnsealParallel_iv {H : Bytes → Bytes} {params : PosPara} {key : Int} (iv iv' : Bytes)
    {idxs : List Nat} {blocks : List (List Bytes)} {befores : List Bytes} {deps : List (List (List Bytes))}
    (h0 : 0 ∉ idxs) (w : Nat) (sched : List Nat) :
    batchUnsealParallel H params idxs blocks befores deps key iv w sched =
      batchUnsealParallel H params idxs blocks befores deps key iv' w sched := by
  unfold batchUnsealParallel
  congr 1
  funext t
  split
  · rfl
  · rw [parRun_iv (e := ⟨H, params, key, iv, t, idxs, befores, deps⟩) iv' h0 sched (st := ⟨blocks, _⟩) (by
      intro k cur r j hm
      have := List.eq_of_mem_replicate hm
      cases this)]

/-- A verifier who has the right modulus but a wrong initial vector comes to the same verdict on
every answer, honest or not, to a challenge that leaves out the first block: whatever the sizes, the
modes, the modulus and the schedule. -/
theorem C87_verdict (H Hs : Bytes → Bytes) (params : PosPara) (origin pub pub' : Bytes) (leaves : List Bytes)
    (root : Bytes) (r : UInt8) (indices : List Nat) (resp : Response) (parallelNum : Nat) (sched : List Nat)
    (key : Int) (iv iv' : Bytes) (hp : loadData pub = .ok (key, iv)) (hp' : loadData pub' = .ok (key, iv'))
    (h0 : 0 ∉ indices) :
    verifierCheck H Hs params origin pub leaves root r indices resp parallelNum sched =
      verifierCheck H Hs params origin pub' leaves root r indices resp parallelNum sched ∧
    batchUnsealAndVerify H params origin indices resp.blocks resp.beforeIds resp.dependBlocks key iv =
      batchUnsealAndVerify H params origin indices resp.blocks resp.beforeIds resp.dependBlocks key iv' := by
  refine ⟨?_, buv_iv iv iv' h0⟩
  unfold verifierCheck
  simp only [hp, hp', bind_ok]
  rw [batchUnseal_iv iv iv' h0, batchUnsealParallel_iv iv iv' h0]

/-- Meets the hypotheses: any file of 256 bytes, two blocks of two units. -/
example (file : Bytes) (hf : file.length = 256) : ∃ p : Nat, (p : Int) = P_512 ∧
    ∃ out out', unsealFile toyHash (toyParams 2 2 0 0 1 1 2) file (p : Int) [1] = .ok out ∧
      unsealFile toyHash (toyParams 2 2 0 0 1 1 2) file (p : Int) [2, 3] = .ok out' ∧ out[200]? = out'[200]? := by
  obtain ⟨p, hp, cfg⟩ := toy_config 2 2 0 0 1 1 2 (by norm_num)
  obtain ⟨o, o', h1, h2, -, h4⟩ := C87_unseal toyHash (fun _ => rfl) _ p 2 2 cfg
    (hashModes_ok (n := 2) (c := 2) rfl rfl (by omega) (by omega)).1
    (hashModes_ok (n := 2) (c := 2) rfl rfl (by omega) (by omega)).2 file [1] [2, 3] (by
      rw [hf]; decide)
  exact ⟨p, hp, o, o', h1, h2, h4 200 (by decide)⟩

/-- Public data files with the same modulus and two initial vectors. -/
example : loadData (pubDataBytes 251 [1]) = .ok (251, [1]) ∧ loadData (pubDataBytes 251 [2, 3]) = .ok (251, [2, 3]) := by
  decide +kernel

/-! ### C88: copies sealed with different initial vectors -/

/-- The first unit of a block after one round. -/
theorem sealOne_first (S : Sealing) (hr : S.rounds = 1) (hc : 0 < S.c) (deps : List (List Bytes)) (chain : Bytes)
    (b : List Bytes) (hb : b.length = S.c) :
    (S.sealOne deps chain b).getD 0 [] = leBytes S.unitPl (S.enc (S.encoderInput deps chain b 0)) := by
  unfold Sealing.sealOne
  rw [hr]
  show ((List.range S.c).foldl (S.stepUnit deps chain) b).getD 0 [] = _
  have key : ∀ m, ((List.range (m + 1)).foldl (S.stepUnit deps chain) b).getD 0 [] =
      leBytes S.unitPl (S.enc (S.encoderInput deps chain b 0)) := by
    intro m
    induction m with
    | zero =>
      show (S.stepUnit deps chain b 0).getD 0 [] = _
      unfold Sealing.stepUnit
      rw [Sealing.getD_set_self _ _ _ _ (by omega)]
      rfl
    | succ m ih =>
      rw [List.range_succ, List.foldl_append]
      simp only [List.foldl_cons, List.foldl_nil]
      unfold Sealing.stepUnit at ih ⊢
      rw [Sealing.getD_set_ne _ _ _ _ _ (by omega)]
      exact ih
  have := key (S.c - 1)
  rwa [show S.c - 1 + 1 = S.c by omega] at this

theorem sealedBlocks_last (S : Sealing) (plain : Nat → List Bytes) {n k : Nat} (hk : k < n) :
    (S.sealedBlocks plain n).getD k [] =
      S.sealOne (S.dependencies (S.sealedBlocks plain k) k) (S.chaining (S.sealedBlocks plain k) k) (plain k) := by
  rw [sealedBlocks_getD S plain (Nat.lt_succ_self k) hk]
  show (S.sealedBlocks plain k ++ [_]).getD k [] = _
  rw [List.getD_eq_getElem?_getD, List.getElem?_append_right (by rw [sealedBlocks_length]), sealedBlocks_length]
  simp

/-- What is hashed into the mask of the first unit of block `k`. -/
def firstMask (S : Sealing) (plain : Nat → List Bytes) (k : Nat) : Bytes :=
  S.maskInput (S.dependencies (S.sealedBlocks plain k) k) (S.chaining (S.sealedBlocks plain k) k) (plain k) 0

/-- With one sealing round, two copies of a file sealed with different initial vectors differ in the
first unit of every block, unless two different strings that are hashed in the two runs (the input of
a mask, or a sealed block) have the same digest. -/
theorem C88_copies_differ (H : Bytes → Bytes) (hH : ∀ x, (H x).length = 32) (hz : ∀ x, H x ≠ zeros 32) (params : PosPara)
    (p n c : Nat) (cfg : Config params p n c) (hp : 256 ^ params.unitL + 256 ^ 32 ≤ p) (hr : params.sealRounds = 1)
    (hL : LongModeOk params n) (hS : ShortModeOk params n c) (origin padded iv iv' : Bytes) (hlen : origin.length = params.dataL)
    (hpad : copyAndPad origin params.dataL params.unitL = .ok padded) (hiv : iv ≠ iv')
    (S S' : Sealing) (hd : describes S H params p n c iv) (hd' : describes S' H params p n c iv')
    (plain : Nat → List Bytes)
    (hplain : plain = fun k => (List.range c).map (fun j => readFile padded ((k * c + j) * params.unitPl) params.unitPl))
    (hmask : ∀ k < n, H (firstMask S plain k) = H (firstMask S' plain k) → firstMask S plain k = firstMask S' plain k)
    (st st' : SealState) (h : sealFile H params padded (p : Int) iv = .ok st)
    (h' : sealFile H params padded (p : Int) iv' = .ok st')
    (hblock : ∀ k, k + 1 < n → H (readFile st.file (k * params.blockPl) params.blockPl) =
        H (readFile st'.file (k * params.blockPl) params.blockPl) →
      readFile st.file (k * params.blockPl) params.blockPl = readFile st'.file (k * params.blockPl) params.blockPl) :
    ∀ k < n, readFile st.file (k * params.blockPl) params.unitPl ≠ readFile st'.file (k * params.blockPl) params.unitPl := by
  obtain ⟨pd, g1, g2, g3, -⟩ := padded_unitsBelow cfg hlen
  rw [hpad] at g1
  cases g1
  obtain ⟨s, a1, a2, -⟩ := C64_seal_exact H hH params p n c cfg hL hS padded iv (by omega) g3 S hd
  obtain ⟨s', b1, b2, -⟩ := C64_seal_exact H hH params p n c cfg hL hS padded iv' (by omega) g3 S' hd'
  rw [h] at a1; cases a1
  rw [h'] at b1; cases b1
  have F := fun (S : Sealing) (iv : Bytes) (hd : describes S H params p n c iv) (deps : List (List Bytes)) (chain : Bytes)
    (k : Nat) (hk : k < n) => C86_first_round H hH params p n c cfg hp origin iv padded hlen hpad S hd deps chain k 0 hk cfg.c_pos
  simp only at F
  have hpk : ∀ k, (List.range c).map (fun j => readFile padded ((k * c + j) * params.unitPl) params.unitPl) = plain k := by
    intro k; rw [hplain]
  rw [← hplain] at a2 b2
  simp only [hpk] at F
  have hupl : 0 < params.unitPl := by rw [cfg.unit_pl]; omega
  have hS1 := describes_sealingOf hd
  have hS2 := describes_sealingOf hd'
  have inv := inverse_of hH cfg iv (longOf H params n) n
  rw [← hS1] at inv
  have len : ∀ k, (plain k).length = c := fun k => by simp [hplain]
  -- the first unit of a block as a function of the first mask
  have unit : ∀ (S : Sealing) (iv : Bytes) (st : SealState) (hd : describes S H params p n c iv)
      (hb : ∀ k < n, readFile st.file (k * params.blockPl) params.blockPl = ((S.sealedBlocks plain n).getD k []).flatten)
      (k : Nat) (hk : k < n),
      readFile st.file (k * params.blockPl) params.unitPl = leBytes params.unitPl (encode p params.vdeRounds
        (leNat (readFile padded ((k * c + 0) * params.unitPl) params.unitPl) + leNat (H (firstMask S plain k)))) := by
    intro S iv st hd hb k hk
    have e := sealOne_first S (by rw [hd.2.2.2.2.2.1, hr]) (by rw [hd.2.2.2.2.1]; exact cfg.c_pos)
      (S.dependencies (S.sealedBlocks plain k) k) (S.chaining (S.sealedBlocks plain k) k) (plain k)
      (by rw [hd.2.2.2.2.1]; exact len k)
    rw [← sealedBlocks_last S plain hk] at e
    have e2 := F S iv hd (S.dependencies (S.sealedBlocks plain k) k) (S.chaining (S.sealedBlocks plain k) k) k hk
    have e3 : S.sealState (S.dependencies (S.sealedBlocks plain k) k) (S.chaining (S.sealedBlocks plain k) k) (plain k) 0 0 =
      plain k := rfl
    rw [e3] at e2
    rw [e2, hd.2.2.2.1, hd.2.1] at e
    have hfl := hb k hk
    cases hcase : (S.sealedBlocks plain n).getD k [] with
    | nil =>
      rw [hcase] at e
      have := congrArg List.length e
      rw [leBytes_length] at this
      simp at this
      omega
    | cons u us =>
      rw [hcase] at e hfl
      have e : u = _ := e
      have hul : u.length = params.unitPl := by rw [e, leBytes_length]
      have hle : params.unitPl ≤ params.blockPl := by
        rw [cfg.block_pl]
        exact Nat.le_mul_of_pos_left _ cfg.c_pos
      apply List.ext_getElem?
      intro i
      have hi := congrArg (fun l => l[i]?) hfl
      simp only [readFile_getElem?, List.flatten_cons] at hi ⊢
      by_cases hlt : i < params.unitPl
      · rw [if_pos (by omega), List.getElem?_append_left (by omega), e] at hi
        rw [if_pos hlt, hi]
        rfl
      · rw [if_neg hlt, List.getElem?_eq_none]
        rw [leBytes_length]; omega
  -- equal first units mean equal masks
  have masks : ∀ k < n, readFile st.file (k * params.blockPl) params.unitPl = readFile st'.file (k * params.blockPl) params.unitPl →
      firstMask S plain k = firstMask S' plain k := by
    intro k hk he
    apply hmask k hk
    rw [unit S iv st hd a2 k hk, unit S' iv' st' hd' b2 k hk] at he
    have hlt : leNat (readFile padded ((k * c + 0) * params.unitPl) params.unitPl) < 256 ^ params.unitL := by
      apply padded_units_small cfg hlen hpad
      calc k * c + 0 < (k + 1) * c := by rw [Nat.add_mul]; have := cfg.c_pos; omega
        _ ≤ n * c := Nat.mul_le_mul_right _ hk
    have bound : ∀ x, 0 < leNat (H x) ∧ leNat (H x) < 256 ^ 32 := by
      intro x
      refine ⟨Nat.pos_of_ne_zero (fun h0 => hz x ?_), by have := leNat_lt (H x); rwa [hH] at this⟩
      rw [eq_leBytes (hH _) h0]
      decide +kernel
    obtain ⟨x1, x2⟩ := bound (firstMask S plain k)
    obtain ⟨y1, y2⟩ := bound (firstMask S' plain k)
    generalize leNat (readFile padded ((k * c + 0) * params.unitPl) params.unitPl) = v at he hlt
    have l1 := inv.enc_lt (v + leNat (H (firstMask S plain k))) (by omega) (by rw [hd.2.2.1]; omega)
    have l2 := inv.enc_lt (v + leNat (H (firstMask S' plain k))) (by omega) (by rw [hd.2.2.1]; omega)
    have d1 := inv.dec_enc (v + leNat (H (firstMask S plain k))) (by omega) (by rw [hd.2.2.1]; omega)
    have d2 := inv.dec_enc (v + leNat (H (firstMask S' plain k))) (by omega) (by rw [hd.2.2.1]; omega)
    rw [hd.2.1] at l1 l2 d1 d2
    rw [hd.2.2.1] at l1 l2
    have he := congrArg leNat he
    rw [leNat_leBytes (lt_of_lt_of_le l1 cfg.fits), leNat_leBytes (lt_of_lt_of_le l2 cfg.fits)] at he
    rw [he, d2] at d1
    exact leNat_inj (by rw [hH, hH]) (by omega)
  intro k
  induction k with
  | zero =>
    intro hk he
    have hm := masks 0 hk he
    unfold firstMask Sealing.maskInput Sealing.chaining at hm
    simp only [if_true] at hm
    have e1 : ∀ T : Sealing, T.dependencies (T.sealedBlocks plain 0) 0 = (T.long (T.H []) 0).map (fun _ => []) := by
      intro T; rfl
    rw [e1, e1, hd.2.2.2.2.2.2.2.1, hd'.2.2.2.2.2.2.2.1, hd.1, hd'.1, hd.2.2.2.2.2.2.2.2, hd'.2.2.2.2.2.2.2.2,
      hd.2.2.2.2.2.2.1, hd'.2.2.2.2.2.2.1] at hm
    exact hiv (List.append_cancel_left hm)
  | succ k ih =>
    intro hk he
    have hm := masks (k + 1) hk he
    unfold firstMask Sealing.maskInput Sealing.chaining at hm
    simp only [if_true, Nat.add_eq_zero_iff, one_ne_zero, and_false, if_false, Nat.add_sub_cancel] at hm
    have hids := List.append_inj_right' hm (by rw [hd.1, hd'.1, hH, hH])
    rw [hd.1, hd'.1, ← sealedBlocks_getD S plain (Nat.lt_succ_self k) hk.le,
      ← sealedBlocks_getD S' plain (Nat.lt_succ_self k) hk.le, ← a2 k (by omega), ← b2 k (by omega)] at hids
    have hb := hblock k (by omega) hids
    apply ih (by omega)
    apply List.ext_getElem?
    intro i
    have hi := congrArg (fun l => l[i]?) hb
    simp only [readFile_getElem?] at hi ⊢
    by_cases hlt : i < params.unitPl
    · have hle : params.unitPl ≤ params.blockPl := by
        rw [cfg.block_pl]
        exact Nat.le_mul_of_pos_left _ cfg.c_pos
      rw [if_pos (by omega), if_pos (by omega)] at hi
      rw [if_pos hlt, if_pos hlt, hi]
    · rw [if_neg hlt, if_neg hlt]

/-- A hash that depends on the last byte only and is never zero. -/
def lastHash (x : Bytes) : Bytes := (if x.getLast? = some 7 then 1 else 2) :: zeros 31

/-- Meets the hypotheses: one block of two units, two initial vectors of one byte; the digests of the
two masks differ. -/
example (origin : Bytes) (hlen : origin.length = 126) : ∃ p : Nat, (p : Int) = P_512 ∧ ∃ padded st st',
    sealFile lastHash (toyParams 1 2 0 0 1 1 1) padded (p : Int) [7] = .ok st ∧
    sealFile lastHash (toyParams 1 2 0 0 1 1 1) padded (p : Int) [8] = .ok st' ∧
    readFile st.file 0 64 ≠ readFile st'.file 0 64 := by
  obtain ⟨p, hp, cfg⟩ := toy_config 1 2 0 0 1 1 1 (by norm_num)
  have hH : ∀ x, (lastHash x).length = 32 := by
    intro x
    show (zeros 31).length + 1 = 32
    rw [zeros_length]
  have hz : ∀ x, lastHash x ≠ zeros 32 := by
    intro x e
    have e : (if x.getLast? = some 7 then (1 : UInt8) else 2) = 0 := (List.cons.inj e).1
    split at e <;> cases e
  have hbig : 256 ^ (toyParams 1 2 0 0 1 1 1).unitL + 256 ^ 32 ≤ p := by
    have : p = P_512.toNat := by rw [← hp]; rfl
    rw [this]
    show 256 ^ 63 + 256 ^ 32 ≤ _
    decide +kernel
  obtain ⟨hL, hS⟩ := hashModes_ok (params := toyParams 1 2 0 0 1 1 1) (n := 1) (c := 2) rfl rfl
    (Or.inl (by norm_num)) (Or.inl (by norm_num))
  obtain ⟨padded, g1, g2, g3, -⟩ := padded_unitsBelow cfg (origin := origin) hlen
  have D : ∀ iv, describes (sealingOf lastHash (toyParams 1 2 0 0 1 1 1) p 2 iv (longOf lastHash (toyParams 1 2 0 0 1 1 1) 1)
      (shortOf lastHash (toyParams 1 2 0 0 1 1 1) 1 2)) lastHash (toyParams 1 2 0 0 1 1 1) p 1 2 iv :=
    fun iv => ⟨rfl, rfl, rfl, rfl, rfl, rfl, rfl, rfl, rfl⟩
  obtain ⟨st, a1, -⟩ := C64_seal_exact lastHash hH _ p 1 2 cfg hL hS padded [7] g2.ge g3 _ (D _)
  obtain ⟨st', b1, -⟩ := C64_seal_exact lastHash hH _ p 1 2 cfg hL hS padded [8] g2.ge g3 _ (D _)
  refine ⟨p, hp, padded, st, st', a1, b1, ?_⟩
  have key : ∀ X Y : Bytes, lastHash (X ++ [7]) ≠ lastHash (Y ++ [8]) := by
    intro X Y e
    have e := (List.cons.inj e).1
    rw [List.getLast?_append, List.getLast?_append] at e
    cases e
  have := C88_copies_differ lastHash hH hz _ p 1 2 cfg hbig rfl hL hS origin padded [7] [8] hlen g1 (by decide) _ _ (D _) (D _)
    _ rfl (by
      intro k hk e
      obtain rfl : k = 0 := Nat.lt_one_iff.mp hk
      exact absurd e (key _ _)) st st' a1 b1 (fun k hk => absurd hk (by simp)) 0 Nat.one_pos
  exact this

end PoS
