import Verif.Proofs.Verifier

/-
Lemmas about preparing challenged blocks, index ranges, the comparison with the original
file and challenge sets.
-/

namespace PoS

/-! ### Collecting loops -/

theorem forEach_collect {α β : Type} {f : α → R β} {l : List α} {acc : List β} {g : α → β}
    (h : ∀ x ∈ l, f x = .ok (g x)) :
    forEach l (fun x acc => do
      let y ← f x
      pure (acc ++ [y])) acc = .ok (acc ++ l.map g) := by
  induction l generalizing acc with
  | nil => simp
  | cons x l ih =>
    rw [forEach_cons, h x (by simp), bind_ok, pure_eq_ok, bind_ok, ih (fun y hy => h y (by simp [hy]))]
    simp

theorem forEach_collect_inv {α β : Type} {f : α → R β} {l : List α} {acc out : List β}
    (h : forEach l (fun x acc => do
      let y ← f x
      pure (acc ++ [y])) acc = .ok out) :
    ∃ ys, out = acc ++ ys ∧ ys.length = l.length ∧
      ∀ i (h1 : i < l.length) (h2 : i < ys.length), f l[i] = .ok ys[i] := by
  induction l generalizing acc with
  | nil => cases h; exact ⟨[], by simp, rfl, by intro i h1; simp at h1⟩
  | cons x l ih =>
    rw [forEach_cons, bind_eq_ok] at h
    obtain ⟨a, h1, h2⟩ := h
    rw [bind_eq_ok] at h1
    obtain ⟨y, hy, h1⟩ := h1
    cases h1
    obtain ⟨ys, rfl, h3, h4⟩ := ih h2
    refine ⟨y :: ys, by simp, by simp [h3], ?_⟩
    intro i h5 h6
    cases i with
    | zero => exact hy
    | succ i => exact h4 i (by simpa using h5) (by simpa using h6)

/-! ### `batch_unseal_prepare` is `single_unseal_prepare` at every index -/

theorem singleUnsealPrepare_inv {H : Bytes → Bytes} {params : PosPara} {file : Bytes} {k : Nat} {pr : Prepared}
    (h : singleUnsealPrepare H params file k = .ok pr) :
    toUnits (readFile file (k * params.blockPl) params.blockPl) params.unitPl = .ok pr.block ∧
    pr.beforeId = (if k ≠ 0 then H (readFile file ((k - 1) * params.blockPl) params.blockPl) else []) ∧
    ∃ n L, div! params.dataL params.blockL = .ok n ∧ idxsLOf params n = .ok L ∧
      (if params.modeL = 0 then do
        let cur ←
         (if k = 0 then pure []
          else
            if params.cntL = 0 then longModeRandom H n pr.beforeId k (k / 10 + 1)
            else longModeRandom H n pr.beforeId k params.cntL : R (List Nat))
        readBlocks params file cur
      else do
        let cur ← at! L k
        readBlocks params file cur) = .ok pr.dependBlocks := by
  unfold singleUnsealPrepare at h
  simp only [bind_eq_ok] at h
  obtain ⟨blk, h1, n, h2, L, h3, deps, h4, h5⟩ := h
  cases h5
  refine ⟨h1, rfl, n, L, h2, h3, ?_⟩
  simp only at h4 ⊢
  split at h4
  · next hm => rw [if_pos hm]; exact h4
  · next hm => rw [if_neg hm]; exact h4

theorem batchUnsealPrepare_eq {H : Bytes → Bytes} {params : PosPara} {file : Bytes} {a b : Nat}
    {idxs : List Nat} (hidx : blocksIdxOf params.blockPl a b = .ok idxs) {n : Nat} {L : List (List Nat)}
    (hn : div! params.dataL params.blockL = .ok n) (hL : idxsLOf params n = .ok L)
    {pr : Nat → Prepared} (h : ∀ k ∈ idxs, singleUnsealPrepare H params file k = .ok (pr k)) :
    batchUnsealPrepare H params file a b = .ok
      { blocksIdx := idxs, blocks := idxs.map (fun k => (pr k).block)
        beforeIds := idxs.map (fun k => (pr k).beforeId)
        dependBlocks := idxs.map (fun k => (pr k).dependBlocks) } := by
  unfold batchUnsealPrepare
  rw [hidx, bind_ok]
  have e1 : forEach idxs (fun idx2 res => do
      let buf := readFile file (idx2 * params.blockPl) params.blockPl
      let ans ← toUnits buf params.unitPl
      pure (res ++ [ans])) [] = .ok (idxs.map (fun k => (pr k).block)) := by
    have := forEach_collect (f := fun k => toUnits (readFile file (k * params.blockPl) params.blockPl) params.unitPl)
      (l := idxs) (acc := []) (g := fun k => (pr k).block)
      (fun k hk => (singleUnsealPrepare_inv (h k hk)).1)
    rw [List.nil_append] at this
    exact this
  rw [e1, bind_ok, hn, bind_ok, hL, bind_ok]
  have e2 : ∀ (l : List Nat) (acc : List Bytes × List (List (List Bytes))),
      (∀ k ∈ l, singleUnsealPrepare H params file k = .ok (pr k)) →
      forEach l (fun idx2 (s : List Bytes × List (List (List Bytes))) => do
        let beforeId :=
          if idx2 ≠ 0 then H (readFile file ((idx2 - 1) * params.blockPl) params.blockPl) else []
        let single ←
         (if params.modeL = 0 then do
            let cur ←
             (if idx2 = 0 then pure []
              else
                if params.cntL = 0 then longModeRandom H n beforeId idx2 (idx2 / 10 + 1)
                else longModeRandom H n beforeId idx2 params.cntL : R (List Nat))
            readBlocks params file cur
          else do
            let cur ← at! L idx2
            readBlocks params file cur : R (List (List Bytes)))
        pure (s.1 ++ [beforeId], s.2 ++ [single])) acc =
      .ok (acc.1 ++ l.map (fun k => (pr k).beforeId), acc.2 ++ l.map (fun k => (pr k).dependBlocks)) := by
    intro l
    induction l with
    | nil => intro acc _; simp
    | cons k l ih =>
      intro acc hl
      obtain ⟨-, hb, n', L', hn', hL', hd⟩ := singleUnsealPrepare_inv (hl k (by simp))
      rw [hn] at hn'; cases hn'
      rw [hL] at hL'; cases hL'
      rw [forEach_cons]
      simp only []
      rw [← hb, hd, bind_ok, pure_eq_ok, bind_ok]
      have := ih (acc.1 ++ [(pr k).beforeId], acc.2 ++ [(pr k).dependBlocks]) (fun y hy => hl y (by simp [hy]))
      refine this.trans ?_
      simp
  have := e2 idxs ([], []) h
  simp only [List.nil_append] at this
  refine bind_eq_ok.mpr ⟨_, this, rfl⟩

/-! ### The index range -/

theorem blocksIdxLoop_eq {bpl a b : Nat} (hb : 0 < bpl) (m fuel i : Nat) (acc : List Nat)
    (hm : ∀ j, j * bpl + a < b ↔ j < m) (hi : i ≤ m) (hf : m < fuel + i) :
    blocksIdxLoop bpl a b fuel i acc = .ok (acc ++ (List.range' i (m - i)).map (fun j => j + a / bpl)) := by
  induction fuel generalizing i acc with
  | zero => omega
  | succ fuel ih =>
    unfold blocksIdxLoop
    by_cases h : i < m
    · rw [if_pos ((hm i).mpr h), div!_of_pos hb, bind_ok, ih (i + 1) _ (by omega) (by omega)]
      rw [show m - i = (m - (i + 1)) + 1 by omega, List.range'_succ]
      simp
    · rw [if_neg (fun hh => h ((hm i).mp hh)), show m - i = 0 by omega]
      simp

theorem lt_ceil_iff {bpl a b : Nat} (hb : 0 < bpl) (j : Nat) :
    j * bpl + a < b ↔ j < (b - a + bpl - 1) / bpl := by
  rw [show j < (b - a + bpl - 1) / bpl ↔ j + 1 ≤ (b - a + bpl - 1) / bpl from Iff.rfl,
    Nat.le_div_iff_mul_le hb, Nat.succ_mul]
  omega

theorem blocksIdxOf_eq {bpl a b : Nat} (hb : 0 < bpl) :
    blocksIdxOf bpl a b = .ok ((List.range ((b - a + bpl - 1) / bpl)).map (fun j => j + a / bpl)) := by
  unfold blocksIdxOf
  rw [blocksIdxLoop_eq hb ((b - a + bpl - 1) / bpl) _ 0 [] (lt_ceil_iff hb) (Nat.zero_le _)]
  · rw [Nat.sub_zero, List.range_eq_range']
    rfl
  · have h1 : (b - a + bpl - 1) / bpl ≤ b - a := by
      rw [Nat.div_le_iff_le_mul_add_pred hb]
      have : b - a ≤ bpl * (b - a) := Nat.le_mul_of_pos_left _ hb
      omega
    omega

/-! ### Comparison with the original -/

theorem verifyUnitLoop_iff (o c : Bytes) (fuel k : Nat) (hf : o.length ≤ fuel + k) (hk : k ≤ o.length) :
    verifyUnitLoop o c o.length fuel k k k = .ok () ↔ ∀ i, k ≤ i → i < o.length → c[i]? = o[i]? := by
  induction fuel generalizing k with
  | zero =>
    unfold verifyUnitLoop
    simp only [true_iff]
    intro i h1 h2
    omega
  | succ fuel ih =>
    unfold verifyUnitLoop
    by_cases h : k < o.length
    · rw [if_pos h, at!_of_lt h, bind_ok]
      cases hc : c[k]? with
      | none =>
        have : at! c k = .error .index := by unfold at!; rw [hc]
        rw [this, bind_error]
        constructor
        · intro hh; cases hh
        · intro hh
          have := hh k (Nat.le_refl k) h
          rw [hc, List.getElem?_eq_getElem h] at this
          cases this
      | some x =>
        rw [at!_eq_ok.mpr hc, bind_ok]
        by_cases hx : o[k] = x
        · rw [if_neg (by simp [hx])]
          have hrest : verifyUnitLoop o c o.length fuel (k + 1) (k + 1) (k + 1) = .ok () ↔
              ∀ i, k ≤ i → i < o.length → c[i]? = o[i]? := by
            rw [ih (k + 1) (by omega) (by omega)]
            constructor
            · intro hh i h1 h2
              by_cases e : i = k
              · subst e; rw [hc, List.getElem?_eq_getElem h, hx]
              · exact hh i (by omega) h2
            · intro hh i h1 h2
              exact hh i (by omega) h2
          simp only []
          split
          · next he =>
            -- the last byte of the unit: the loop ends
            have hend : ∀ kc, verifyUnitLoop o c o.length fuel (k + 1) kc 0 = .ok () := by
              intro kc
              cases fuel with
              | zero => rfl
              | succ f => unfold verifyUnitLoop; rw [if_neg (by omega)]
            rw [hend]
            simp only [true_iff]
            intro i h1 h2
            have : i = k := by omega
            subst this
            rw [hc, List.getElem?_eq_getElem h, hx]
          · exact hrest
        · rw [if_pos hx]
          constructor
          · intro hh; cases hh
          · intro hh
            have := hh k (Nat.le_refl k) h
            rw [hc, List.getElem?_eq_getElem h] at this
            exact absurd (Option.some.inj this).symm hx
    · rw [if_neg h]
      simp only [true_iff]
      intro i h1 h2
      omega

theorem take_eq_iff (o c : Bytes) : (∀ i, 0 ≤ i → i < o.length → c[i]? = o[i]?) ↔ c.take o.length = o := by
  constructor
  · intro h
    apply List.ext_getElem?
    intro i
    rw [List.getElem?_take]
    split
    · next hi => exact h i (Nat.zero_le i) hi
    · next hi => rw [List.getElem?_eq_none (by omega)]
  · intro h i _ hi
    have : (c.take o.length)[i]? = o[i]? := by rw [h]
    rw [List.getElem?_take, if_pos hi] at this
    exact this

theorem forUp_unit_iff {n : Nat} {f : Nat → R Unit} :
    forUp n (fun j _ => f j) () = .ok () ↔ ∀ j < n, f j = .ok () := by
  induction n with
  | zero => simp
  | succ n ih =>
    rw [forUp_succ, bind_eq_ok]
    constructor
    · rintro ⟨u, h1, h2⟩ j hj
      by_cases e : j = n
      · subst e; exact h2
      · exact ih.mp h1 j (by omega)
    · intro h
      exact ⟨(), ih.mpr (fun j hj => h j (by omega)), h n (by omega)⟩

theorem batchVerify_iff {origin : Bytes} {k blockL unitL c : Nat} (hu : 0 < unitL) (hb : blockL = c * unitL)
    (blk : List Bytes) :
    batchVerify origin k blk blockL unitL = .ok () ↔
      ∀ j < c, ∃ u, blk[j]? = some u ∧ u.take unitL = readFile origin (k * blockL + j * unitL) unitL := by
  unfold batchVerify
  obtain ⟨us, h1, h2, h3, h4⟩ := toUnits_ok (readFile origin (k * blockL) blockL) unitL c hu
    (by rw [readFile_length, hb])
  simp only []
  rw [h1, bind_ok]
  have hget : ∀ j (hj : j < us.length), us[j] = readFile origin (k * blockL + j * unitL) unitL := by
    intro j hj
    have := flatten_drop_take us unitL j hj h3 []
    rw [List.append_nil, h4] at this
    rw [← this]
    apply readFile_readFile
    rw [hb]
    have : (j + 1) * unitL ≤ c * unitL := Nat.mul_le_mul_right _ (by omega)
    rw [Nat.succ_mul] at this
    exact this
  rw [forUp_unit_iff, h2]
  refine forall_congr' (fun j => ?_)
  refine forall_congr' (fun hj => ?_)
  have hju : j < us.length := by omega
  have hl : (us[j]).length = unitL := h3 _ (List.getElem_mem hju)
  rw [at!_of_lt hju, bind_ok, if_pos (by omega), ← hget j hju]
  cases hc : blk[j]? with
  | none =>
    have : at! blk j = .error .index := by unfold at!; rw [hc]
    rw [this, bind_error]
    constructor
    · intro h; cases h
    · rintro ⟨u, hu, -⟩; cases hu
  | some x =>
    rw [at!_eq_ok.mpr hc, bind_ok, ← hl, verifyUnitLoop_iff _ _ _ 0 (by omega) (by omega), take_eq_iff]
    constructor
    · intro h; exact ⟨x, rfl, h⟩
    · rintro ⟨u, hu, h⟩
      cases hu; exact h

/-! ### Challenge sets -/

theorem mem_setInsert {x y : Nat} {l : List Nat} : y ∈ setInsert x l ↔ y = x ∨ y ∈ l := by
  induction l with
  | nil => simp [setInsert]
  | cons z l ih =>
    unfold setInsert
    split
    · simp
    · split
      · next h => subst h; simp
      · simp only [List.mem_cons, ih]
        constructor
        · rintro (h | h | h) <;> simp [h]
        · rintro (h | h | h) <;> simp [h]

theorem setInsert_sorted {x : Nat} {l : List Nat} (h : l.Pairwise (· < ·)) : (setInsert x l).Pairwise (· < ·) := by
  induction l with
  | nil => simp [setInsert]
  | cons z l ih =>
    unfold setInsert
    rw [List.pairwise_cons] at h
    split
    · next hlt =>
      rw [List.pairwise_cons]
      refine ⟨?_, List.pairwise_cons.mpr h⟩
      intro a ha
      rcases List.mem_cons.mp ha with rfl | ha
      · exact hlt
      · exact lt_trans hlt (h.1 a ha)
    · split
      · exact List.pairwise_cons.mpr h
      · next h1 h2 =>
        rw [List.pairwise_cons]
        refine ⟨?_, ih h.2⟩
        intro a ha
        rcases mem_setInsert.mp ha with rfl | ha
        · omega
        · exact h.1 a ha

theorem setInsert_length {x : Nat} {l : List Nat} (h : l.Pairwise (· < ·)) :
    (setInsert x l).length = if x ∈ l then l.length else l.length + 1 := by
  induction l with
  | nil => simp [setInsert]
  | cons z l ih =>
    unfold setInsert
    rw [List.pairwise_cons] at h
    split
    · next hlt =>
      rw [if_neg]
      · rfl
      · intro hm
        rcases List.mem_cons.mp hm with rfl | hm
        · omega
        · have := h.1 x hm; omega
    · split
      · next h1 h2 => subst h2; simp
      · next h1 h2 =>
        rw [List.length_cons, ih h.2]
        by_cases hx : x ∈ l
        · rw [if_pos hx, if_pos (by simp [hx])]; rfl
        · rw [if_neg hx, if_neg (by simp [hx, h2])]; rfl

theorem createChallengesLoop_spec {draw : Nat → Nat} {n lo hi : Nat} (hd : ∀ i, lo ≤ draw i ∧ draw i < hi)
    (fuel i : Nat) (set out : List Nat) (hs : set.Pairwise (· < ·)) (hr : ∀ x ∈ set, lo ≤ x ∧ x < hi)
    (hl : set.length ≤ n) (h : createChallengesLoop draw n fuel i set = some out) :
    out.Pairwise (· < ·) ∧ (∀ x ∈ out, lo ≤ x ∧ x < hi) ∧ out.length = n := by
  induction fuel generalizing i set with
  | zero =>
    unfold createChallengesLoop at h
    split at h
    · cases h
    · cases h; exact ⟨hs, hr, by omega⟩
  | succ fuel ih =>
    unfold createChallengesLoop at h
    split at h
    · refine ih (i + 1) _ (setInsert_sorted hs) ?_ ?_ h
      · intro x hx
        rcases mem_setInsert.mp hx with rfl | hx
        · exact hd i
        · exact hr x hx
      · rw [setInsert_length hs]; split <;> omega
    · cases h; exact ⟨hs, hr, by omega⟩

theorem createChallengesLoop_terminates {draw : Nat → Nat} {n : Nat} (l : List Nat) (hn : n ≤ l.length)
    (hnd : l.Nodup) (fuel i : Nat) (set : List Nat) (hs : set.Pairwise (· < ·))
    (hl : ∀ x ∈ l, x ∈ set ∨ ∃ j, i ≤ j ∧ j < i + fuel ∧ draw j = x) :
    ∃ out, createChallengesLoop draw n fuel i set = some out := by
  induction fuel generalizing i set with
  | zero =>
    unfold createChallengesLoop
    have hsub : l ⊆ set := by
      intro x hx
      rcases hl x hx with h | ⟨j, h1, h2, -⟩
      · exact h
      · omega
    have := (List.subperm_of_subset hnd hsub).length_le
    rw [if_neg (by omega)]
    exact ⟨set, rfl⟩
  | succ fuel ih =>
    unfold createChallengesLoop
    split
    · apply ih (i + 1) _ (setInsert_sorted hs)
      intro x hx
      rcases hl x hx with h | ⟨j, h1, h2, h3⟩
      · left; exact mem_setInsert.mpr (Or.inr h)
      · by_cases e : j = i
        · left; subst e; exact mem_setInsert.mpr (Or.inl h3.symm)
        · right; exact ⟨j, by omega, by omega, h3⟩
    · exact ⟨set, rfl⟩

/-! ### Exact success condition of `batch_unseal` -/

theorem batchBlock_congr {H : Bytes → Bytes} {params : PosPara} {key : Int} {iv : Bytes}
    {idxsS : List (List Nat)} {idxs : List Nat} {befores : List Bytes} {deps : List (List (List Bytes))}
    {i : Nat} {bs bs' : List (List Bytes)} (h : bs[i]? = bs'[i]?) :
    batchBlock H params key iv idxsS idxs befores deps i bs =
      batchBlock H params key iv idxsS idxs befores deps i bs' := by
  unfold batchBlock
  have : at! bs i = at! bs' i := by unfold at!; rw [h]
  rw [this]

theorem batchUnseal_iff {H : Bytes → Bytes} {params : PosPara} {key : Int} {iv : Bytes}
    {idxsS : List (List Nat)} (hs : batchIdxsS params = .ok idxsS) {idxs : List Nat}
    {blocks : List (List Bytes)} {befores : List Bytes} {deps : List (List (List Bytes))}
    {outs : List (List Bytes)} :
    batchUnseal H params idxs blocks befores deps key iv = .ok outs ↔
      ∃ hl : outs.length = blocks.length, ∀ i (hi : i < blocks.length),
        batchBlock H params key iv idxsS idxs befores deps i blocks = .ok (outs[i]'(by omega)) := by
  unfold batchUnseal
  rw [hs, bind_ok]
  constructor
  · intro h
    have := forUp_inv (fun k (s : List (List Bytes)) => s.length = blocks.length ∧
      (∀ j < k, ∃ b, s[j]? = some b ∧ batchBlock H params key iv idxsS idxs befores deps j blocks = .ok b) ∧
      ∀ j, k ≤ j → s[j]? = blocks[j]?) ⟨rfl, by simp, by simp⟩ ?_ h
    · obtain ⟨h1, h2, -⟩ := this
      refine ⟨h1, fun i hi => ?_⟩
      obtain ⟨b, hb, hb'⟩ := h2 i hi
      rw [List.getElem?_eq_getElem (by omega)] at hb
      rw [hb', Option.some.inj hb]
    · intro k hk s s' ⟨h1, h2, h3⟩ hstep
      rw [bind_eq_ok] at hstep
      obtain ⟨new, hnew, hput⟩ := hstep
      obtain ⟨hlt, rfl⟩ := put!_eq_ok.mp hput
      refine ⟨by simpa using h1, ?_, ?_⟩
      · intro j hj
        by_cases e : j = k
        · subst e
          refine ⟨new, by rw [List.getElem?_set_self hlt], ?_⟩
          rw [← batchBlock_congr (h3 j (Nat.le_refl j))]
          exact hnew
        · obtain ⟨b, hb, hb'⟩ := h2 j (by omega)
          exact ⟨b, by rw [List.getElem?_set_ne (by omega)]; exact hb, hb'⟩
      · intro j hj
        rw [List.getElem?_set_ne (by omega)]
        exact h3 j (by omega)
  · rintro ⟨hl, h⟩
    apply forUp_put hl
    intro i hi s _ hsi
    rw [batchBlock_congr (bs' := blocks) (by rw [hsi, List.getElem?_eq_getElem hi]), h i hi, bind_ok]

end PoS
