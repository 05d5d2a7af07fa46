import Verif.Proofs.Unseal

/-
Lemmas about the verifier side: unsealing of transmitted blocks, its agreement with
whole-file unsealing, preparation of challenged blocks, comparison with the original.
-/

namespace PoS

/-! ### `batch_unseal` is whole-file unsealing of the transmitted data -/

section Batch
variable {H : Bytes → Bytes} {params : PosPara} {key : Int} {iv : Bytes}

theorem batchUnit_eq {idxsS : List (List Nat)} {beforeIds : List Bytes}
    {dependBlocks : List (List (List Bytes))} {unitCnt i idx2 idx1 : Nat} {b : Bytes}
    {d : List (List Bytes)} (hd : dependBlocks[i]? = some d) (hb : beforeIds[i]? = some b)
    (cur : List Bytes) :
    batchUnit H params key iv idxsS beforeIds dependBlocks unitCnt i idx2 idx1 cur =
      unsealUnit H params key iv idxsS b d unitCnt idx2 idx1 cur := by
  have e : batchDependData H params idxsS dependBlocks cur unitCnt i idx1 =
      unsealDependData H params idxsS d cur unitCnt idx1 := by
    unfold batchDependData
    rw [at!_eq_ok.mpr hd, bind_ok]
    rfl
  unfold batchUnit unsealUnit
  rw [e, at!_eq_ok.mpr hb]
  cases unsealDependData H params idxsS d cur unitCnt idx1 with
  | error e => rfl
  | ok dd =>
    simp only [bind_ok, pure_eq_ok]
    by_cases h1 : idx1 = 0
    · by_cases h2 : idx2 = 0
      · simp only [h1, h2, if_true, bind_ok]
      · simp only [h1, h2, if_true, if_false, bind_ok]
    · simp only [h1, if_false, bind_ok]

theorem batchBlock_eq {idxsS : List (List Nat)} {blocksIdx : List Nat} {beforeIds : List Bytes}
    {dependBlocks : List (List (List Bytes))} {i idx2 : Nat} {b : Bytes} {d : List (List Bytes)}
    {blocks : List (List Bytes)} {us : List Bytes}
    (hd : dependBlocks[i]? = some d) (hb : beforeIds[i]? = some b) (hi : blocksIdx[i]? = some idx2)
    (hu : blocks[i]? = some us) :
    batchBlock H params key iv idxsS blocksIdx beforeIds dependBlocks i blocks =
      unsealRoundsLoop H params key iv idxsS b d us.length idx2 us := by
  unfold batchBlock unsealRoundsLoop
  rw [at!_eq_ok.mpr hi, bind_ok, at!_eq_ok.mpr hu, bind_ok]
  apply forUp_congr
  intro _ _ s
  apply forUp_congr
  intro j _ s
  cases sub! us.length 1 with
  | error e => rfl
  | ok a =>
    rw [bind_ok, bind_ok]
    cases sub! a j with
    | error e => rfl
    | ok idx1 => rw [bind_ok, bind_ok, batchUnit_eq hd hb]

end Batch

/-- A loop that replaces entry after entry, where step `i` only looks at entry `i`. -/
theorem forUp_put {α : Type} {F : Nat → List α → R (List α)} {bs outs : List α}
    (hlen : outs.length = bs.length)
    (h : ∀ i (hi : i < bs.length) s, s.length = bs.length → s[i]? = some bs[i] →
      F i s = put! s i (outs[i]'(by omega))) :
    forUp bs.length F bs = .ok outs := by
  have : ∃ t, forUp bs.length F bs = .ok t ∧ (t.length = bs.length ∧
      ∀ j, t[j]? = if j < bs.length then outs[j]? else bs[j]?) := by
    refine forUp_total (fun k (s : List α) => s.length = bs.length ∧
      ∀ j, s[j]? = if j < k then outs[j]? else bs[j]?) ⟨rfl, by simp⟩ ?_
    intro k hk s ⟨h1, h2⟩
    have hs : s[k]? = some bs[k] := by
      rw [h2 k, if_neg (Nat.lt_irrefl k), List.getElem?_eq_getElem hk]
    refine ⟨s.set k (outs[k]'(by omega)), ?_, by simpa using h1, ?_⟩
    · rw [h k hk s h1 hs, put!_of_lt (by omega)]
    · intro j
      rw [List.getElem?_set]
      by_cases e : k = j
      · subst e
        rw [if_pos rfl, if_pos (by omega), if_pos (by omega), List.getElem?_eq_getElem (by omega)]
      · rw [if_neg e, h2 j]
        by_cases hj : j < k
        · rw [if_pos hj, if_pos (by omega)]
        · rw [if_neg hj, if_neg (by omega)]
  obtain ⟨t, h1, h2, h3⟩ := this
  rw [h1]
  congr 1
  apply List.ext_getElem?
  intro j
  rw [h3 j]
  split
  · rfl
  · rw [List.getElem?_eq_none (by omega), List.getElem?_eq_none (by omega)]

theorem batchUnseal_eq {H : Bytes → Bytes} {params : PosPara} {key : Int} {iv : Bytes}
    {idxsS : List (List Nat)} (hs : batchIdxsS params = .ok idxsS) {idxs : List Nat}
    {blocks : List (List Bytes)} {befores : List Bytes} {deps : List (List (List Bytes))}
    (h1 : blocks.length = idxs.length) (h2 : befores.length = idxs.length)
    (h3 : deps.length = idxs.length) {outs : List (List Bytes)} (h4 : outs.length = idxs.length)
    (h : ∀ i (hi : i < idxs.length), unsealRoundsLoop H params key iv idxsS (befores[i]'(by omega))
      (deps[i]'(by omega)) (blocks[i]'(by omega)).length idxs[i] (blocks[i]'(by omega)) =
        .ok (outs[i]'(by omega))) :
    batchUnseal H params idxs blocks befores deps key iv = .ok outs := by
  unfold batchUnseal
  rw [hs, bind_ok]
  apply forUp_put (by omega)
  intro i hi s _ hsi
  rw [batchBlock_eq (b := befores[i]'(by omega)) (d := deps[i]'(by omega)) (idx2 := idxs[i]'(by omega))
    (List.getElem?_eq_getElem _) (List.getElem?_eq_getElem _) (List.getElem?_eq_getElem _) hsi,
    h i (by omega), bind_ok]

/-! ### Changing the table of static short dependencies -/

theorem unsealUnit_congrS {H : Bytes → Bytes} {params : PosPara} {key : Int} {iv : Bytes}
    {S T : List (List Nat)} {b : Bytes} {d : List (List Bytes)} {unitCnt idx2 idx1 : Nat}
    (h : S[idx1]? = T[idx1]? ∨ params.modeS = 0) (cur : List Bytes) :
    unsealUnit H params key iv S b d unitCnt idx2 idx1 cur =
      unsealUnit H params key iv T b d unitCnt idx2 idx1 cur := by
  have : unsealDependData H params S d cur unitCnt idx1 = unsealDependData H params T d cur unitCnt idx1 := by
    unfold unsealDependData
    rcases h with h | h
    · have : at! S idx1 = at! T idx1 := by unfold at!; rw [h]
      rw [this]
    · simp only [h, ne_eq, not_true_eq_false, if_false]
  unfold unsealUnit
  rw [this]

theorem unsealRoundsLoop_congrS {H : Bytes → Bytes} {params : PosPara} {key : Int} {iv : Bytes}
    {S T : List (List Nat)} {b : Bytes} {d : List (List Bytes)} {unitCnt idx2 : Nat}
    (h : (∀ i < unitCnt, S[i]? = T[i]?) ∨ params.modeS = 0) (cur : List Bytes) :
    unsealRoundsLoop H params key iv S b d unitCnt idx2 cur =
      unsealRoundsLoop H params key iv T b d unitCnt idx2 cur := by
  unfold unsealRoundsLoop
  apply forUp_congr
  intro _ _ s
  apply forUp_congr
  intro j hj s
  rw [sub!_of_le (by omega : 1 ≤ unitCnt)]
  simp only [bind_ok]
  rw [sub!_of_le (by omega : j ≤ unitCnt - 1)]
  simp only [bind_ok]
  exact unsealUnit_congrS (h.imp (fun h => h _ (by omega)) id) s

theorem filter_pair {n c index e : Nat} (hi : index < c) (hcn : c ≤ n) :
    pairAt c index e = (pairAt n index e).filter (fun d => decide (d < c)) := by
  unfold pairAt
  rw [List.filter_append]
  congr 1
  · split
    · rw [List.filter_cons_of_pos (by simp; omega), List.filter_nil]
    · rfl
  · by_cases h : index + (1 + 2 * e) < c
    · rw [if_pos h, if_pos (by omega), List.filter_cons_of_pos (by simpa using h), List.filter_nil]
    · rw [if_neg h]
      split
      · rw [List.filter_cons_of_neg (by simpa using h), List.filter_nil]
      · rfl

theorem take_filter_of {α : Type} (q : α → Bool) (l : List α) (k : Nat) (h : ∀ x ∈ l.take k, q x = true) :
    (l.filter q).take k = l.take k := by
  induction l generalizing k with
  | nil => rfl
  | cons x l ih =>
    cases k with
    | zero => rfl
    | succ k =>
      rw [List.take_succ_cons] at h ⊢
      have hx := h x (by simp)
      rw [List.filter_cons_of_pos hx, List.take_succ_cons, ih k (fun y hy => h y (by simp [hy]))]

theorem shortMode1_shrink {n c index count : Nat} (hi : index < c) (hcn : c ≤ n) {l : List Nat}
    (h : shortMode1 n index count = .ok l) (hl : ∀ d ∈ l, d < c) : shortMode1 c index count = .ok l := by
  rw [shortMode1_eq] at h ⊢
  have h := Except.ok.inj h
  congr 1
  rw [← h]
  have e1 : (List.range (c + index + 1)).flatMap (pairAt c index) =
      (List.range (n + index + 1)).flatMap (pairAt c index) := by
    symm
    refine flatMap_range_none (fun e' he => ?_) (by omega)
    exact pairAt_none (e := c + index + 1) ⟨by omega, by omega⟩ he
  have e2 : (List.range (n + index + 1)).flatMap (pairAt c index) =
      ((List.range (n + index + 1)).flatMap (pairAt n index)).filter (fun d => decide (d < c)) := by
    rw [List.filter_flatMap]
    congr 1
    funext e
    exact filter_pair hi hcn
  rw [e1, e2]
  apply take_filter_of
  intro d hd
  rw [h] at hd
  simpa using hl d hd

theorem forUp_step {σ : Type} {n : Nat} {f : Nat → σ → R σ} {s t : σ} (P : σ → Prop) (h0 : P s)
    (hstep : ∀ k < n, ∀ s s', P s → f k s = .ok s' → P s') (hrun : forUp n f s = .ok t) :
    ∀ i < n, ∃ s s', P s ∧ f i s = .ok s' := by
  induction n generalizing t with
  | zero => intro i hi; omega
  | succ n ih =>
    rw [forUp_succ, bind_eq_ok] at hrun
    obtain ⟨u, h1, h2⟩ := hrun
    intro i hi
    by_cases h : i < n
    · exact ih (fun k hk => hstep k (by omega)) h1 i h
    · obtain rfl : i = n := by omega
      refine ⟨u, t, ?_, h2⟩
      exact forUp_inv (fun _ s => P s) h0 (fun k hk => hstep k (by omega)) h1

theorem forEach_at_lt {l : List Nat} {cur : List Bytes} {acc r : Bytes}
    (h : forEach l (fun j res => do
      let u ← at! cur j
      pure (res ++ u)) acc = .ok r) : ∀ j ∈ l, j < cur.length := by
  induction l generalizing acc with
  | nil => simp
  | cons x l ih =>
    rw [forEach_cons, bind_eq_ok] at h
    obtain ⟨a, h1, h2⟩ := h
    rw [bind_eq_ok] at h1
    obtain ⟨u, hu, -⟩ := h1
    intro j hj
    rcases List.mem_cons.mp hj with rfl | hj
    · exact (List.getElem?_eq_some_iff.mp (at!_eq_ok.mp hu)).1
    · exact ih h2 j hj

theorem sealRoundsLoop_table {H : Bytes → Bytes} {params : PosPara} {key : Int} {iv : Bytes}
    {S : List (List Nat)} {ids : List Bytes} {deps : List (List Bytes)} {c k : Nat}
    {s r : List Bytes × List Nat} (hS : params.modeS ≠ 0) (hr : 0 < params.sealRounds)
    (hlen : s.1.length = c) (h : sealRoundsLoop H params key iv S ids deps c k s = .ok r) :
    ∀ i < c, ∃ l, S[i]? = some l ∧ ∀ d ∈ l, d < c := by
  have hunit : ∀ i (s s' : List Bytes × List Nat),
      sealUnit H params key iv S ids deps c k i s = .ok s' →
      s'.1.length = s.1.length ∧ ∃ l, S[i]? = some l ∧ ∀ d ∈ l, d < s.1.length := by
    intro i s s' h
    unfold sealUnit at h
    simp only [bind_eq_ok] at h
    obtain ⟨dd, hdd, dd', -, u, -, v, -, cur, hcur, h⟩ := h
    cases h
    obtain ⟨-, rfl⟩ := put!_eq_ok.mp hcur
    refine ⟨by simp, ?_⟩
    unfold sealDependData at hdd
    rw [bind_eq_ok] at hdd
    obtain ⟨a, -, hdd⟩ := hdd
    rw [if_pos hS, bind_eq_ok] at hdd
    obtain ⟨l, hl, hdd⟩ := hdd
    exact ⟨l, at!_eq_ok.mp hl, forEach_at_lt hdd⟩
  unfold sealRoundsLoop at h
  obtain ⟨m, hm⟩ : ∃ m, params.sealRounds = m + 1 := ⟨params.sealRounds - 1, by omega⟩
  rw [hm, forUp_succ', bind_eq_ok] at h
  obtain ⟨s1, h1, -⟩ := h
  intro i hi
  obtain ⟨t, t', ht, hstep⟩ := forUp_step (fun s : List Bytes × List Nat => s.1.length = c) hlen
    (fun k' _ s s' hs hs' => by rw [(hunit k' s s' hs').1]; exact hs) h1 i hi
  obtain ⟨-, l, hl, hd⟩ := hunit i t t' hstep
  exact ⟨l, hl, by rw [ht] at hd; exact hd⟩

theorem shortMode2_zero (num count : Nat) (hc : 0 < count) :
    shortMode2 num 0 count = .error .overflow := by
  unfold shortMode2
  obtain ⟨m, rfl⟩ : ∃ m, count = m + 1 := ⟨count - 1, by omega⟩
  rw [forUp_succ']
  rfl

/-- The static short table built for the units of a block and the one built for the
blocks of the file give the same lists, whenever the latter could be used at all. -/
theorem short_tables_agree {params : PosPara} {n c : Nat} (hn : 0 < n)
    {S : List (List Nat)} (hS : idxsSOf params n = .ok S)
    (huse : params.modeS ≠ 0 → ∀ i < c, ∃ l, S[i]? = some l ∧ ∀ d ∈ l, d < c) :
    ∃ T, idxsSOf params c = .ok T ∧ ((∀ i < c, S[i]? = T[i]?) ∨ params.modeS = 0) := by
  by_cases h0 : params.modeS = 0
  · exact ⟨[], by unfold idxsSOf; rw [if_neg (by simp [h0])]; rfl, Or.inr h0⟩
  · have huse := huse h0
    unfold idxsSOf at hS ⊢
    rw [if_pos h0] at hS ⊢
    unfold createShortDepend at hS ⊢
    obtain ⟨hlen, hget⟩ := table_spec hS
    have hcn : c ≤ n := by
      by_contra hcn
      obtain ⟨l, hl, -⟩ := huse n (by omega)
      rw [List.getElem?_eq_none (by omega)] at hl
      cases hl
    have hkey : ∀ i (hi : i < c), shortDepend c i params.cntS params.modeS = .ok (S[i]'(by omega)) := by
      intro i hi
      obtain ⟨l, hl, hd⟩ := huse i hi
      have hSi : S[i]'(by omega) = l := by
        rw [List.getElem?_eq_getElem (by omega)] at hl
        exact Option.some.inj hl
      have h1 := hget i (by omega)
      rw [hSi] at h1 ⊢
      unfold shortDepend at h1 ⊢
      split
      · next hm => rw [if_pos hm] at h1; exact shortMode1_shrink hi hcn h1 hd
      · next hm =>
        rw [if_neg hm] at h1
        split
        · next hm2 =>
          rw [if_pos hm2] at h1
          have h00 := hget 0 (by omega)
          unfold shortDepend at h00
          rw [if_neg hm, if_pos hm2] at h00
          rcases Nat.eq_zero_or_pos params.cntS with hz | hz
          · rw [hz] at h1 ⊢
            rw [← h1]; rfl
          · rw [shortMode2_zero n _ hz] at h00
            cases h00
        · next hm2 => rw [if_neg hm2] at h1; exact h1
    obtain ⟨T, hT⟩ := table_ok (f := fun i => shortDepend c i params.cntS params.modeS) (n := c)
      (fun i hi => ⟨_, hkey i hi⟩)
    refine ⟨T, hT, Or.inl ?_⟩
    obtain ⟨hlen', hget'⟩ := table_spec hT
    intro i hi
    rw [List.getElem?_eq_getElem (by omega), List.getElem?_eq_getElem (by omega)]
    have := hget' i (by omega)
    rw [hkey i hi] at this
    rw [Except.ok.inj this]

theorem batchIdxsS_eq {params : PosPara} {p n c : Nat} (cfg : Config params p n c) :
    batchIdxsS params = idxsSOf params c := by
  unfold batchIdxsS idxsSOf
  have : div! params.blockL params.unitL = .ok c := by
    rw [div!_of_pos cfg.unit_pos, cfg.block, Nat.mul_div_cancel _ cfg.unit_pos]
  rw [this]
  rfl

/-! ### What a verifier can do with one block of a sealed file -/

/-- Everything about block `k` of a completely sealed file, for any tables of static dependencies. -/
theorem sealed_block_tables {H : Bytes → Bytes} (hH : ∀ x, (H x).length = 32) {params : PosPara}
    {p n c : Nat} (cfg : Config params p n c) {file : Bytes}
    (hlen : n * params.blockPl ≤ file.length) (hu : UnitsBelow params p n c file) {iv : Bytes} {st : SealState}
    {L S : List (List Nat)} (hL : LongOk L) (hS : ShortOk S)
    (hrun : forUp n (fun idx2 s => sealBlock H params (p : Int) iv n L S idx2 s)
      { file := file, ids := List.replicate n [], log := [] } = .ok st)
    (hlog : ∀ v ∈ st.log, v ≠ 0) {k : Nat} (hk : k < n) :
    ∃ us' b deps us, toUnits (readFile st.file (k * params.blockPl) params.blockPl) params.unitPl = .ok us' ∧
      (if k ≠ 0 then H (readFile st.file ((k - 1) * params.blockPl) params.blockPl) else []) = b ∧
      (if params.modeL = 0 then do
          let cur ←
           (if k = 0 then pure []
            else
              if params.cntL = 0 then longModeRandom H n b k (k / 10 + 1)
              else longModeRandom H n b k params.cntL : R (List Nat))
          readBlocks params st.file cur
        else do
          let cur ← at! L k
          readBlocks params st.file cur : R (List (List Bytes))) = .ok deps ∧
      us'.length = c ∧
      (k ≠ 0 → b = H (readFile st.file ((k - 1) * params.blockPl) params.blockPl)) ∧
      toUnits (readFile file (k * params.blockPl) params.blockPl) params.unitPl = .ok us ∧
      us.flatten = readFile file (k * params.blockPl) params.blockPl ∧ us.length = c ∧
      us'.flatten = readFile st.file (k * params.blockPl) params.blockPl ∧
      (params.modeS ≠ 0 → 0 < params.sealRounds → ∀ i < c, ∃ l, S[i]? = some l ∧ ∀ d ∈ l, d < c) ∧
      unsealRoundsLoop H params (p : Int) iv S b deps c k us' = .ok us := by
  have h0 : SealInv H params p n c file 0 { file := file, ids := List.replicate n [], log := [] } :=
    sealInv_zero (fun i hi => hu.blockOk cfg.layout hi)
  obtain ⟨hfin, -, htr⟩ := seal_trace hH cfg.keyOk cfg.layout hS hlen h0 (Nat.le_refl n) hrun
  obtain ⟨s, s', hinv, hblk, hinv', hpre, -, hsame⟩ := htr k hk
  obtain ⟨-, -, hlow, us, us', deps, b, hb1, hb0, hb2, hus, husl, hus', husl', hflat, hdeps, hrounds, -, hun⟩ :=
    sealBlock_spec hH cfg.keyOk cfg.layout hS hlen hk hinv hblk
  have hun := (hun (fun v hv => hlog v (hpre.subset hv))).2
  have hblkeq : ∀ i ≤ k, blockOf params st.file i = blockOf params s'.file i := by
    intro i hi
    apply blockOf_congr
    intro j _ hj
    apply hsame
    have : (i + 1) * params.blockPl ≤ (k + 1) * params.blockPl := Nat.mul_le_mul_right _ (by omega)
    omega
  have hblkeq2 : ∀ i < k, blockOf params st.file i = blockOf params s.file i := by
    intro i hi
    rw [hblkeq i (by omega)]
    apply blockOf_congr
    intro j _ hj
    apply hlow
    have : (i + 1) * params.blockPl ≤ k * params.blockPl := Nat.mul_le_mul_right _ (by omega)
    omega
  have hb : k ≠ 0 → b = H (blockOf params st.file (k - 1)) := by
    intro hk0
    rw [hblkeq (k - 1) (by omega)]
    exact hb2 hk0
  have hdeps' := sealDependBlocks_eq (H := H) (params := params) (n := n) hL hb1 hblkeq2
  rw [hdeps] at hdeps'
  have e1 : toUnits (readFile st.file (k * params.blockPl) params.blockPl) params.unitPl = .ok us' := by
    have := hblkeq k (Nat.le_refl k)
    unfold blockOf at this hus'
    rw [this]
    exact hus'
  have e2 : (if k ≠ 0 then H (readFile st.file ((k - 1) * params.blockPl) params.blockPl) else []) = b := by
    by_cases hk0 : k = 0
    · rw [if_neg (by simp [hk0])]; exact (hb0 hk0).symm
    · rw [if_pos hk0]; exact (hb hk0).symm
  have hsafe : params.modeS ≠ 0 → 0 < params.sealRounds → ∀ i < c, ∃ l, S[i]? = some l ∧ ∀ d ∈ l, d < c :=
    fun hm hr => sealRoundsLoop_table hm hr husl hrounds
  have hblock : us.flatten = readFile file (k * params.blockPl) params.blockPl := hflat
  have htu : toUnits (readFile file (k * params.blockPl) params.blockPl) params.unitPl = .ok us := by
    have : blockOf params s.file k = blockOf params file k := by
      apply blockOf_congr
      intro j hj _
      exact hinv.tail j hj
    unfold blockOf at this hus
    rw [← this]
    exact hus
  have hfl' : us'.flatten = readFile st.file (k * params.blockPl) params.blockPl := by
    obtain ⟨w, hw, -, -, hw2, -⟩ := blockOf_units cfg.layout st.file k
    have := hblkeq k (Nat.le_refl k)
    rw [this, hus'] at hw
    cases hw
    exact hw2
  exact ⟨us', b, deps, us, e1, e2, hdeps'.symm, husl', hb, htu, hblock, husl, hfl', hsafe, hun⟩

/-- Everything about block `k` of a completely sealed file: what `single_unseal_prepare`
returns for it and that undoing it gives the original block. -/
theorem sealed_block {H : Bytes → Bytes} (hH : ∀ x, (H x).length = 32) {params : PosPara}
    {p n c : Nat} (cfg : Config params p n c) (hr : 0 < params.sealRounds) {file : Bytes}
    (hlen : n * params.blockPl ≤ file.length) (hu : UnitsBelow params p n c file) {iv : Bytes} {st : SealState}
    (h : sealFile H params file (p : Int) iv = .ok st) (hlog : ∀ v ∈ st.log, v ≠ 0) {k : Nat} (hk : k < n) :
    ∃ S T pr us, idxsSOf params n = .ok S ∧ idxsSOf params c = .ok T ∧
      singleUnsealPrepare H params st.file k = .ok pr ∧ pr.block.length = c ∧
      (k ≠ 0 → pr.beforeId = H (readFile st.file ((k - 1) * params.blockPl) params.blockPl)) ∧
      toUnits (readFile file (k * params.blockPl) params.blockPl) params.unitPl = .ok us ∧
      us.flatten = readFile file (k * params.blockPl) params.blockPl ∧ us.length = c ∧
      pr.block.flatten = readFile st.file (k * params.blockPl) params.blockPl ∧
      unsealRoundsLoop H params (p : Int) iv S pr.beforeId pr.dependBlocks c k pr.block = .ok us ∧
      unsealRoundsLoop H params (p : Int) iv T pr.beforeId pr.dependBlocks c k pr.block = .ok us := by
  rw [sealFile_eq cfg] at h
  obtain ⟨L, S, hL, hS, hrun⟩ := sealPrefix_eq cfg h
  obtain ⟨us', b, deps, us, e1, e2, hdeps, husl', hb, htu, hblock, husl, hfl', hsafe, hun⟩ :=
    sealed_block_tables hH cfg hlen hu (idxsLOf_longOk hL) (idxsSOf_shortOk hS) hrun hlog hk
  have hprep : singleUnsealPrepare H params st.file k = .ok ⟨us', b, deps⟩ := by
    unfold singleUnsealPrepare
    simp only []
    rw [e1, bind_ok, cfg.div, bind_ok, hL, bind_ok]
    simp only [e2]
    exact bind_eq_ok.mpr ⟨deps, hdeps, rfl⟩
  obtain ⟨T, hT, hagree⟩ := short_tables_agree (by omega) hS (fun hm => hsafe hm hr)
  refine ⟨S, T, ⟨us', b, deps⟩, us, hS, hT, hprep, husl', hb, htu, hblock, husl, hfl', hun, ?_⟩
  rw [← unsealRoundsLoop_congrS hagree]
  exact hun

end PoS
