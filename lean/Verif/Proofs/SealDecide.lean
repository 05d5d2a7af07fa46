import Verif.Proofs.UnsealExact

/-
Hash-chosen short dependencies in blocks of more than 65536 units, one to five requested: sealing and
unsealing succeed exactly when for every unit enough of the five numbers differ from its position.
-/

set_option linter.unusedSectionVars false

namespace PoS

section

variable {H : Bytes → Bytes} (hH : ∀ x, (H x).length = 32) {params : PosPara} {p n c : Nat}
  (hk : KeyOk p params.unitPl) (hlay : Layout params n c) (hS : params.modeS = 0)
  (hc : 65536 < c) (hcnt : params.cntS ≤ 5) {iv : Bytes} {long : Bytes → Nat → List Nat}
  {idxsL idxsS : List (List Nat)}

/-- Above 65536 positions the numbers are small. -/
theorem drawn_large {H : Bytes → Bytes} {num : Nat} (hnum : 65536 < num) (data : Bytes) (i : Nat) :
    768 ≤ drawn H data num i ∧ drawn H data num i ≤ 1533 := by
  unfold drawn
  rw [if_neg (by omega), if_neg (by omega)]
  have hb : ∀ j, streamByte H data j ≤ 255 := fun j => by
    unfold streamByte
    have := (((prefixChain H data (j / 16)).getD (j % 16) 0)).toNat_lt
    omega
  have h1 := hb (3 * i)
  have h2 := hb (3 * i + 1)
  have h3 := hb (3 * i + 2)
  omega

include hc in
theorem enoughDrawn_iff {cnt j : Nat} {seed : Bytes} :
    EnoughDrawn H c cnt seed j ↔
      cnt ≤ (((List.range 5).map (fun i => drawn H seed c i % c)).filter (fun d => decide (d ≠ j))).length := by
  unfold EnoughDrawn
  have he : ∀ i, drawn H seed c i % c = drawn H seed c i := fun i =>
    Nat.mod_eq_of_lt (by have := drawn_large (H := H) hc seed i; omega)
  rw [List.filter_map, List.length_map]
  simp only [he, Function.comp_def]

include hH hS hc hcnt in
/-- What is hashed for a unit, or a panic. -/
theorem sealDependData_few {deps : List (List Bytes)} (hdeps : ∀ d ∈ deps, d.length = c) {cur : List Bytes}
    (hcur : cur.length = c) {j : Nat} (hj : j < c) :
    (EnoughDrawn H c params.cntS (if j = 0 then [] else cur.getD (j - 1) []) j ∧
      sealDependData H params idxsS deps cur c j =
        .ok ((deps.map (fun d => d.getD j [])).flatten ++
          ((hashShort H c params.cntS (if j = 0 then [] else cur.getD (j - 1) []) j).map
            (fun i => cur.getD i [])).flatten)) ∨
    (¬ EnoughDrawn H c params.cntS (if j = 0 then [] else cur.getD (j - 1) []) j ∧
      sealDependData H params idxsS deps cur c j = .error .index) := by
  have h2 : (if j = 0 then shortDependRandom H c [] j params.cntS
      else do
        let before ← at! cur (j - 1)
        shortDependRandom H c before j params.cntS : R (List Nat)) =
      shortDependRandom H c (if j = 0 then [] else cur.getD (j - 1) []) j params.cntS := by
    by_cases h0 : j = 0
    · rw [if_pos h0, if_pos h0]
    · rw [if_neg h0, if_neg h0, getD_of_at (d := []) (by omega), bind_ok]
  generalize hseed : (if j = 0 then [] else cur.getD (j - 1) []) = seed at h2 ⊢
  have hrun : sealDependData H params idxsS deps cur c j = (do
      let l ← shortDependRandom H c seed j params.cntS
      forEach l (fun i d => do
        let u ← at! cur i
        pure (d ++ u)) ((deps.map (fun d => d.getD j [])).flatten)) := by
    unfold sealDependData
    rw [gatherDeps hdeps hj, bind_ok, if_neg (by simp [hS]), h2]
  rw [hrun, shortDependRandom_few hH hc hcnt]
  by_cases he : EnoughDrawn H c params.cntS seed j
  · refine Or.inl ⟨he, ?_⟩
    rw [enoughDrawn_iff hc] at he
    rw [if_pos he, bind_ok, sortDedup_eq_sort]
    have e : hashShort H c params.cntS seed j = ((((List.range 5).map (fun i => drawn H seed c i % c)).filter
        (fun d => decide (d ≠ j))).take params.cntS).toFinset.sort (· ≤ ·) := by
      unfold hashShort available
      rw [if_neg (by omega), if_neg (by omega)]
    rw [e]
    refine gatherUnits hcur ?_ _
    rw [← e]
    exact hashShort_lt (by omega)
  · refine Or.inr ⟨he, ?_⟩
    rw [enoughDrawn_iff hc] at he
    rw [if_neg he]
    rfl

theorem sealState_succ (S : Sealing) (deps : List (List Bytes)) (chain : Bytes) (b : List Bytes) (r i : Nat) :
    S.sealState deps chain b r (i + 1) = S.stepUnit deps chain (S.sealState deps chain b r i) i := by
  unfold Sealing.sealState
  rw [List.range_succ, List.foldl_append]
  rfl

theorem sealState_round (S : Sealing) (deps : List (List Bytes)) (chain : Bytes) (b : List Bytes) (r : Nat) :
    S.sealState deps chain b (r + 1) 0 = S.sealState deps chain b r S.c := by
  unfold Sealing.sealState
  rw [Function.iterate_succ_apply']
  rfl

include hH hk hS hc hcnt in
/-- The rounds of one block. -/
theorem sealRoundsLoop_few {ids : List Bytes} {deps : List (List Bytes)}
    {chain : Bytes} {k : Nat} (hchain : if k = 0 then chain = iv else ids[k - 1]? = some chain)
    (hdeps : ∀ d ∈ deps, d.length = c) {b : List Bytes} {log : List Nat} (hb : b.length = c)
    (hu : UnitsOk p params.unitPl b) :
    ((sealingOf H params p c iv long (hashShort H c params.cntS)).EnoughSealing params.cntS deps chain b ∧
      ∃ s', sealRoundsLoop H params (p : Int) iv idxsS ids deps c k (b, log) = .ok s' ∧
        s'.1 = (sealingOf H params p c iv long (hashShort H c params.cntS)).sealOne deps chain b ∧
        (s'.1.length = c ∧ UnitsOk p params.unitPl s'.1) ∧
        s'.2 = log ++ (sealingOf H params p c iv long (hashShort H c params.cntS)).encoderInputs deps chain b) ∨
    (¬ (sealingOf H params p c iv long (hashShort H c params.cntS)).EnoughSealing params.cntS deps chain b ∧
      sealRoundsLoop H params (p : Int) iv idxsS ids deps c k (b, log) = .error .index) := by
  set S := sealingOf H params p c iv long (hashShort H c params.cntS) with hSdef
  have hrounds := forUp_decide (n := params.sealRounds) (s := (b, log)) (e := Panic.index)
    (f := fun _ s => forUp c (fun idx1 s => sealUnit H params (p : Int) iv idxsS ids deps c k idx1 s) s)
    (P := fun r => ∀ j < c, EnoughDrawn H c params.cntS (if j = 0 then [] else (S.sealState deps chain b r j).getD (j - 1) []) j)
    (inv := fun r s => s.1 = S.sealState deps chain b r 0 ∧ (s.1.length = c ∧ UnitsOk p params.unitPl s.1) ∧
      s.2 = log ++ (List.range r).flatMap (fun r => (List.range c).map (fun i =>
        S.encoderInput deps chain (S.sealState deps chain b r i) i)))
    ⟨rfl, ⟨hb, hu⟩, by simp⟩ (by
      intro r hr s ⟨s1, s2, s3⟩
      have hunits := forUp_decide (n := c) (s := s) (e := Panic.index)
        (f := fun idx1 s => sealUnit H params (p : Int) iv idxsS ids deps c k idx1 s)
        (P := fun j => EnoughDrawn H c params.cntS (if j = 0 then [] else (S.sealState deps chain b r j).getD (j - 1) []) j)
        (inv := fun i t => t.1 = S.sealState deps chain b r i ∧ (t.1.length = c ∧ UnitsOk p params.unitPl t.1) ∧
          t.2 = s.2 ++ (List.range i).map (fun i => S.encoderInput deps chain (S.sealState deps chain b r i) i))
        ⟨s1, s2, by simp⟩ (by
          intro j hj t ⟨t1, t2, t3⟩
          rw [← t1]
          rcases sealDependData_few hH hS hc hcnt (idxsS := idxsS) hdeps t2.1 hj with ⟨e1, e2⟩ | ⟨e1, e2⟩
          · obtain ⟨t', g1, g2, g3, g4⟩ := sealUnit_eq_of hH hk (iv := iv) (long := long) hchain hdeps t2.1 t2.2 hj e2
            refine Or.inl ⟨e1, t', g1, ?_, g3, ?_⟩
            · rw [sealState_succ, ← t1]; exact g2
            · rw [g4, t3, List.range_succ, List.map_append, ← List.append_assoc, t1]
              rfl
          · refine Or.inr ⟨e1, ?_⟩
            unfold sealUnit
            simp only
            rw [e2, bind_error])
      rcases hunits with ⟨h1, t, h2, h3, h4, h5⟩ | ⟨⟨m, hm, -, hno, -⟩, he⟩
      · refine Or.inl ⟨h1, t, h2, ?_, h4, ?_⟩
        · rw [h3, sealState_round]; rfl
        · rw [h5, s3, List.range_succ, List.flatMap_append, List.append_assoc]
          simp
      · exact Or.inr ⟨fun h => hno (h m hm), he⟩)
  rcases hrounds with ⟨h1, t, h2, h3, h4, h5⟩ | ⟨⟨m, hm, -, hno, -⟩, he⟩
  · exact Or.inl ⟨h1, t, h2, h3, h4, h5⟩
  · exact Or.inr ⟨fun h => hno (h m hm), he⟩

include hH hk hlay hS hc hcnt in
/-- The blocks, one after the other. -/
theorem sealLoop_few {file0 : Bytes} (hlen : n * params.blockPl ≤ file0.length)
    (hu : ∀ i < n, BlockOk params p c file0 i) {m : Nat} (hm : m ≤ n)
    (hlong : ∀ k < m, LongAt H params n idxsL long k) (S : Sealing)
    (hSd : S = sealingOf H params p c iv long (hashShort H c params.cntS)) :
    ((∀ k < m, S.EnoughSealing params.cntS (S.dependencies (S.sealedBlocks (plainUnits params c file0) k) k)
        (S.chaining (S.sealedBlocks (plainUnits params c file0) k) k) (plainUnits params c file0 k)) ∧
      ∃ s', forUp m (fun idx2 s => sealBlock H params (p : Int) iv n idxsL idxsS idx2 s)
        { file := file0, ids := List.replicate n [], log := [] } = .ok s' ∧ ExactInv S n params file0 m s') ∨
    ((∃ q < m, (∀ k < q, S.EnoughSealing params.cntS (S.dependencies (S.sealedBlocks (plainUnits params c file0) k) k)
        (S.chaining (S.sealedBlocks (plainUnits params c file0) k) k) (plainUnits params c file0 k)) ∧
      ¬ S.EnoughSealing params.cntS (S.dependencies (S.sealedBlocks (plainUnits params c file0) q) q)
        (S.chaining (S.sealedBlocks (plainUnits params c file0) q) q) (plainUnits params c file0 q) ∧
      ∃ t, forUp q (fun idx2 s => sealBlock H params (p : Int) iv n idxsL idxsS idx2 s)
        { file := file0, ids := List.replicate n [], log := [] } = .ok t ∧ ExactInv S n params file0 q t ∧
        sealBlock H params (p : Int) iv n idxsL idxsS q t = .error .index) ∧
      forUp m (fun idx2 s => sealBlock H params (p : Int) iv n idxsL idxsS idx2 s)
        { file := file0, ids := List.replicate n [], log := [] } = .error .index) := by
  subst hSd
  refine forUp_decide
    (fun k => (sealingOf H params p c iv long (hashShort H c params.cntS)).EnoughSealing params.cntS
      ((sealingOf H params p c iv long (hashShort H c params.cntS)).dependencies
        ((sealingOf H params p c iv long (hashShort H c params.cntS)).sealedBlocks (plainUnits params c file0) k) k)
      ((sealingOf H params p c iv long (hashShort H c params.cntS)).chaining
        ((sealingOf H params p c iv long (hashShort H c params.cntS)).sealedBlocks (plainUnits params c file0) k) k)
      (plainUnits params c file0 k))
    (fun k s => ExactInv (sealingOf H params p c iv long (hashShort H c params.cntS)) n params file0 k s)
    ⟨rfl, List.length_replicate, fun j hj => absurd hj (by omega), fun j hj => absurd hj (by omega),
      fun j hj => absurd hj (by omega), fun _ _ => rfl, rfl⟩ ?_
  intro k hk' s hs
  refine sealBlock_cases hH hk hlay hlen hu (by omega) (hlong k hk') hs ?_
  rintro deps chain rfl rfl hchain hdeps husok
  exact sealRoundsLoop_few hH hk hS hc hcnt hchain hdeps (plainUnits_length ..) husok

/-! ### Unsealing -/

theorem unsealState_succ (S : Sealing) (dec : Nat → Nat) (deps : List (List Bytes)) (chain : Bytes) (b : List Bytes)
    (r i : Nat) (hi : i < S.c) :
    S.unsealState dec deps chain b r (i + 1) = S.unstepUnit dec deps chain (S.unsealState dec deps chain b r i) (S.c - 1 - i) := by
  unfold Sealing.unsealState
  have h : i < (List.range S.c).reverse.length := by simpa using hi
  rw [List.take_succ_eq_append_getElem h, List.foldl_append]
  simp

theorem unsealState_round (S : Sealing) (dec : Nat → Nat) (deps : List (List Bytes)) (chain : Bytes) (b : List Bytes) (r : Nat) :
    S.unsealState dec deps chain b (r + 1) 0 = S.unsealState dec deps chain b r S.c := by
  unfold Sealing.unsealState
  rw [Function.iterate_succ_apply', List.take_zero, List.foldl_nil, List.take_of_length_le (by simp)]

include hH hk hS hc hcnt in
/-- The rounds of one block. -/
theorem unsealRoundsLoop_few {bid : Bytes} {deps : List (List Bytes)} {chain : Bytes} {k : Nat}
    (hchain : chain = (if k = 0 then iv else bid)) (hdeps : ∀ d ∈ deps, d.length = c) {b : List Bytes}
    (hb : b.length = c) (hu : ∀ u ∈ b, u.length = params.unitPl) (S : Sealing)
    (hSd : S = sealingOf H params p c iv long (hashShort H c params.cntS)) :
    (S.EnoughUnsealing params.cntS ((undelay p)^[params.vdeRounds]) deps chain b ∧
      unsealRoundsLoop H params (p : Int) iv idxsS bid deps c k b =
        .ok (S.unsealOne ((undelay p)^[params.vdeRounds]) deps chain b) ∧
      (S.unsealOne ((undelay p)^[params.vdeRounds]) deps chain b).length = c ∧
      ∀ u ∈ S.unsealOne ((undelay p)^[params.vdeRounds]) deps chain b, u.length = params.unitPl) ∨
    (¬ S.EnoughUnsealing params.cntS ((undelay p)^[params.vdeRounds]) deps chain b ∧
      unsealRoundsLoop H params (p : Int) iv idxsS bid deps c k b = .error .index) := by
  set dec := (undelay p)^[params.vdeRounds] with hdec
  have hSc : S.c = c := by rw [hSd]; rfl
  have hSH : S.H = H := by rw [hSd]; rfl
  have hSr : S.rounds = params.sealRounds := by rw [hSd]; rfl
  have hSu : S.unitPl = params.unitPl := by rw [hSd]; rfl
  have hrounds := forUp_decide (n := params.sealRounds) (s := b) (e := Panic.index)
    (f := fun _ s => forUp c (fun j s => do
        let a ← sub! c 1
        let idx1 ← sub! a j
        unsealUnit H params (p : Int) iv idxsS bid deps c k idx1 s) s)
    (P := fun r => ∀ i < c, EnoughDrawn H c params.cntS
      (if c - 1 - i = 0 then [] else (S.unsealState dec deps chain b r i).getD (c - 1 - i - 1) []) (c - 1 - i))
    (inv := fun r s => s = S.unsealState dec deps chain b r 0 ∧ s.length = c ∧ ∀ u ∈ s, u.length = params.unitPl)
    ⟨rfl, hb, hu⟩ (by
      intro r hr s ⟨s1, s2, s3⟩
      have hunits := forUp_decide (n := c) (s := s) (e := Panic.index)
        (f := fun j s => do
          let a ← sub! c 1
          let idx1 ← sub! a j
          unsealUnit H params (p : Int) iv idxsS bid deps c k idx1 s)
        (P := fun i => EnoughDrawn H c params.cntS
          (if c - 1 - i = 0 then [] else (S.unsealState dec deps chain b r i).getD (c - 1 - i - 1) []) (c - 1 - i))
        (inv := fun i t => t = S.unsealState dec deps chain b r i ∧ t.length = c ∧ ∀ u ∈ t, u.length = params.unitPl)
        ⟨s1, s2, s3⟩ (by
          intro i hi t ⟨t1, t2, t3⟩
          rw [sub!_of_le (by omega), bind_ok, sub!_of_le (by omega), bind_ok, ← t1]
          rcases sealDependData_few hH hS hc hcnt (idxsS := idxsS) hdeps t2 (show c - 1 - i < c by omega) with
            ⟨e1, e2⟩ | ⟨e1, e2⟩
          · have g := unsealUnit_eq_of hH hk (iv := iv) (long := long) (k := k) (beforeId := bid) hdeps t2 t3
              (show c - 1 - i < c by omega) e2
            rw [← hSd, ← hchain, ← hdec] at g
            obtain ⟨w1, w2⟩ := unstepUnit_shape (S := S) (dec := dec) (deps := deps) (chain := chain) (b := t)
              (j := c - 1 - i) (by rw [hSu]; exact t3)
            refine Or.inl ⟨e1, _, g, ?_, by rw [w1]; exact t2, by rw [← hSu]; exact w2⟩
            rw [unsealState_succ _ _ _ _ _ _ _ (by omega), ← t1, hSc]
          · refine Or.inr ⟨e1, ?_⟩
            unfold unsealUnit
            rw [unsealDependData_eq, e2, bind_error])
      rcases hunits with ⟨h1, t, h2, h3, h4, h5⟩ | ⟨⟨m, hm, -, hno, -⟩, he⟩
      · exact Or.inl ⟨h1, t, h2, by rw [h3, unsealState_round, hSc], h4, h5⟩
      · exact Or.inr ⟨fun h => hno (h m hm), he⟩)
  have hiff : S.EnoughUnsealing params.cntS dec deps chain b ↔ ∀ r < params.sealRounds, ∀ i < c,
      EnoughDrawn H c params.cntS (if c - 1 - i = 0 then [] else (S.unsealState dec deps chain b r i).getD (c - 1 - i - 1) [])
        (c - 1 - i) := by
    unfold Sealing.EnoughUnsealing
    rw [hSc, hSH, hSr]
    constructor
    · intro h r hr i hi
      have := h r hr (c - 1 - i) (by omega)
      rwa [show c - 1 - (c - 1 - i) = i by omega] at this
    · intro h r hr j hj
      have := h r hr (c - 1 - j) (by omega)
      rwa [show c - 1 - (c - 1 - j) = j by omega] at this
  rw [hiff]
  rcases hrounds with ⟨h1, t, h2, h3, h4, h5⟩ | ⟨⟨m, hm, -, hno, -⟩, he⟩
  · have e : t = S.unsealOne dec deps chain b := by
      rw [h3]
      unfold Sealing.unsealOne Sealing.unsealState
      rw [hSr]
      simp
    rw [← e]
    exact Or.inl ⟨h1, h2, h4, h5⟩
  · exact Or.inr ⟨fun h => hno (h m hm), he⟩

end

end PoS
