import Verif.Properties.Verifier
import Verif.Properties.Detection
import Mathlib.Data.Set.Card
import Mathlib.Data.Finset.Powerset
import Mathlib.Data.Fintype.BigOperators
import Mathlib.Logic.Equiv.Fintype
import Mathlib.Tactic.Ring
import Mathlib.Tactic.NormNum

/-
C105: the distribution of the challenge sets, and what it means for detection.
-/

set_option linter.unusedSectionVars false

namespace PoS

/-- The stream of draws given by `L` equally likely positions in a range of `N` values; after the `L`
values anything may follow (the loop is only run for `L` draws). -/
def drawsIn {L N : Nat} (b : Fin L → Fin N) : Nat → Nat :=
  fun i => if h : i < L then (b ⟨i, h⟩).val else 0

/-- The different values among the first `m` draws. -/
def firstDraws {L N : Nat} (m : Nat) (b : Fin L → Fin N) : Finset (Fin N) :=
  (Finset.univ.filter (fun i : Fin L => i.val < m)).image b

/-- `T` is the set collected when the loop stops. -/
def stopsWith {L N : Nat} (q : Nat) (b : Fin L → Fin N) (T : Finset (Fin N)) : Prop :=
  ∃ m ≤ L, T = firstDraws m b ∧ (∀ m' < m, (firstDraws m' b).card < q) ∧ q ≤ T.card

/-- A set of positions of the range as a set of indices. -/
def shifted (lo : Nat) {N : Nat} (T : Finset (Fin N)) : Finset Nat := T.image (fun x => lo + x.val)

theorem shifted_inj {lo N : Nat} {T T' : Finset (Fin N)} (h : shifted lo T = shifted lo T') : T = T' := by
  unfold shifted at h
  exact Finset.image_injective (fun a b hab => Fin.ext (Nat.add_left_cancel hab)) h

theorem card_shifted {lo N : Nat} (T : Finset (Fin N)) : (shifted lo T).card = T.card := by
  unfold shifted
  exact Finset.card_image_of_injective _ (fun a b hab => Fin.ext (Nat.add_left_cancel hab))

theorem drawsIn_lt {L N : Nat} (hN : 0 < N) (b : Fin L → Fin N) (i : Nat) : drawsIn b i < N := by
  unfold drawsIn
  split
  · exact (b ⟨i, by assumption⟩).isLt
  · omega

theorem range_drawsIn {lo L N m : Nat} (hm : m ≤ L) (b : Fin L → Fin N) :
    ((List.range m).map (fun i => lo + drawsIn b i % (lo + N - lo))).toFinset = shifted lo (firstDraws m b) := by
  ext x
  simp only [List.mem_toFinset, List.mem_map, List.mem_range, shifted, firstDraws, Finset.mem_image,
    Finset.mem_filter, Finset.mem_univ, true_and, Nat.add_sub_cancel_left]
  constructor
  · rintro ⟨i, hi, rfl⟩
    refine ⟨b ⟨i, by omega⟩, ⟨⟨i, by omega⟩, hi, rfl⟩, ?_⟩
    unfold drawsIn
    rw [dif_pos (by omega), Nat.mod_eq_of_lt (b _).isLt]
  · rintro ⟨_, ⟨i, hi, rfl⟩, rfl⟩
    refine ⟨i.val, hi, ?_⟩
    unfold drawsIn
    rw [dif_pos i.isLt, Nat.mod_eq_of_lt (b _).isLt]

theorem firstDraws_mono {L N m m' : Nat} (h : m ≤ m') (b : Fin L → Fin N) : firstDraws m b ⊆ firstDraws m' b := by
  unfold firstDraws
  apply Finset.image_subset_image
  intro i hi
  rw [Finset.mem_filter] at hi ⊢
  exact ⟨hi.1, by omega⟩

theorem stopsWith_unique {L N q : Nat} {b : Fin L → Fin N} {T T' : Finset (Fin N)} (h : stopsWith q b T)
    (h' : stopsWith q b T') : T = T' := by
  obtain ⟨m, hm, rfl, h1, h2⟩ := h
  obtain ⟨m', hm', rfl, h1', h2'⟩ := h'
  rcases Nat.lt_trichotomy m m' with hlt | heq | hlt
  · have := h1' m hlt
    omega
  · rw [heq]
  · have := h1 m' hlt
    omega

/-- What `create_challenges` returns, in terms of the values drawn. -/
theorem createChallenges_drawsIn {lo L N q : Nat} (hN : 0 < N) (b : Fin L → Fin N) (out : List Nat) :
    createChallenges (drawsIn b) q lo (lo + N) L = .ok (some out) ↔
      ∃ T, stopsWith q b T ∧ out = (shifted lo T).sort (· ≤ ·) := by
  have fwd : ∀ out, createChallenges (drawsIn b) q lo (lo + N) L = .ok (some out) →
      ∃ T, stopsWith q b T ∧ out = (shifted lo T).sort (· ≤ ·) := by
    intro out h
    obtain ⟨m, h1, h2, h3, h4⟩ := C24_exact _ _ _ _ _ _ h
    rw [range_drawsIn h1] at h2
    refine ⟨firstDraws m b, ⟨m, h1, rfl, fun m' hm' => ?_, ?_⟩, h2⟩
    · have := h3 m' hm'
      rwa [range_drawsIn (by omega), card_shifted] at this
    · rwa [h2, Finset.length_sort, card_shifted] at h4
  refine ⟨fwd out, ?_⟩
  rintro ⟨T, hT, rfl⟩
  obtain ⟨m, h1, h2, h3, h4⟩ := id hT
  obtain ⟨out', ho⟩ := C24_terminates (drawsIn b) q lo (lo + N) L (by omega)
    ((shifted lo T).sort (· ≤ ·)) (Finset.sort_nodup _ _) (by rwa [Finset.length_sort, card_shifted]) (by
      intro x hx
      rw [Finset.mem_sort, h2, ← range_drawsIn h1, List.mem_toFinset, List.mem_map] at hx
      obtain ⟨j, hj, rfl⟩ := hx
      exact ⟨j, by have := List.mem_range.mp hj; omega, rfl⟩)
  obtain ⟨T', hT', rfl⟩ := fwd out' ho
  rw [ho, stopsWith_unique hT hT']

/-- Renaming the values renames the set. -/
theorem stopsWith_perm {L N q : Nat} (π : Equiv.Perm (Fin N)) (b : Fin L → Fin N) (T : Finset (Fin N)) :
    stopsWith q (π ∘ b) (T.image π) ↔ stopsWith q b T := by
  have hf : ∀ m, firstDraws m (π ∘ b) = (firstDraws m b).image π := by
    intro m
    unfold firstDraws
    rw [Finset.image_image]
  have hc : ∀ S : Finset (Fin N), (S.image π).card = S.card := fun S => Finset.card_image_of_injective _ π.injective
  unfold stopsWith
  simp only [hf, hc, (Finset.image_injective π.injective).eq_iff]

/-- Sets of the same size are images of each other under a permutation. -/
theorem exists_perm_image {N : Nat} {T T' : Finset (Fin N)} (h : T.card = T'.card) :
    ∃ π : Equiv.Perm (Fin N), T.image π = T' := by
  have e : {x // x ∈ T} ≃ {x // x ∈ T'} := Fintype.equivOfCardEq (by simpa using h)
  refine ⟨e.extendSubtype, ?_⟩
  apply Finset.eq_of_subset_of_card_le
  · intro y hy
    obtain ⟨x, hx, rfl⟩ := Finset.mem_image.mp hy
    exact e.extendSubtype_mem x hx
  · rw [Finset.card_image_of_injective _ (Equiv.injective _), h]

theorem stops_card {L N q : Nat} {T T' : Finset (Fin N)} (h : T.card = T'.card) :
    Set.ncard {b : Fin L → Fin N | stopsWith q b T} = Set.ncard {b : Fin L → Fin N | stopsWith q b T'} := by
  obtain ⟨π, rfl⟩ := exists_perm_image h
  have e : {b : Fin L → Fin N | stopsWith q b (T.image π)} =
      (fun b => (π : Fin N → Fin N) ∘ b) '' {b : Fin L → Fin N | stopsWith q b T} := by
    ext b
    rw [Set.mem_image]
    constructor
    · intro hb
      refine ⟨(π.symm : Fin N → Fin N) ∘ b, ?_, ?_⟩
      · have hb : stopsWith q b (T.image π) := hb
        show stopsWith q _ T
        rw [← stopsWith_perm π, ← Function.comp_assoc, Equiv.self_comp_symm, Function.id_comp]
        exact hb
      · simp only [← Function.comp_assoc, Equiv.self_comp_symm, Function.id_comp]
    · rintro ⟨a, ha, rfl⟩
      exact (stopsWith_perm π a T).mpr ha
  rw [e, Set.InjOn.ncard_image]
  intro a _ c _ hac
  funext i
  exact π.injective (congrFun hac i)

theorem stopsWith_card {L N q : Nat} (hN : 0 < N) {b : Fin L → Fin N} {T : Finset (Fin N)} (h : stopsWith q b T) :
    T.card = q := by
  have h1 := (createChallenges_drawsIn (lo := 0) (q := q) hN b _).mpr ⟨T, h, rfl⟩
  have h2 := (C24_sorted_distinct _ _ _ _ _ _ h1).2.1
  rwa [Finset.length_sort, card_shifted] at h2

/-- Counting the draws that lead to a set with some property. -/
theorem count_stops {L N q : Nat} (hN : 0 < N) (G : Finset (Fin N) → Prop) (T₀ : Finset (Fin N)) (h₀ : T₀.card = q) :
    Set.ncard {b : Fin L → Fin N | ∃ T, stopsWith q b T ∧ G T} =
      Set.ncard {T : Finset (Fin N) | T.card = q ∧ G T} * Set.ncard {b : Fin L → Fin N | stopsWith q b T₀} := by
  classical
  set A : Finset (Finset (Fin N)) := Finset.univ.filter (fun T => T.card = q ∧ G T) with hA
  have e1 : {T : Finset (Fin N) | T.card = q ∧ G T} = (A : Set (Finset (Fin N))) := by
    ext T
    simp [hA]
  have e2 : {b : Fin L → Fin N | ∃ T, stopsWith q b T ∧ G T} =
      ((A.biUnion (fun T => Finset.univ.filter (fun b : Fin L → Fin N => stopsWith q b T)) :
        Finset (Fin L → Fin N)) : Set (Fin L → Fin N)) := by
    ext b
    simp only [hA, Set.mem_ofPred_eq, Finset.coe_biUnion, Finset.mem_coe, Finset.mem_filter, Finset.mem_univ,
      true_and, Set.mem_iUnion, exists_prop]
    constructor
    · rintro ⟨T, h1, h2⟩
      exact ⟨T, ⟨stopsWith_card hN h1, h2⟩, h1⟩
    · rintro ⟨T, ⟨-, h2⟩, h1⟩
      exact ⟨T, h1, h2⟩
  rw [e1, e2, Set.ncard_coe_finset, Set.ncard_coe_finset, Finset.card_biUnion]
  · rw [Finset.sum_congr rfl (g := fun _ => Set.ncard {b : Fin L → Fin N | stopsWith q b T₀}), Finset.sum_const,
      smul_eq_mul]
    intro T hT
    rw [← stops_card (q := q) (L := L) (T := T) (T' := T₀) (by
      rw [h₀]
      exact (Finset.mem_filter.mp hT).2.1), ← Set.ncard_coe_finset]
    congr 1
    ext b
    simp
  · intro T _ T' _ hne
    unfold Function.onFun
    rw [Finset.disjoint_left]
    intro b hb hb'
    exact hne (stopsWith_unique (Finset.mem_filter.mp hb).2 (Finset.mem_filter.mp hb').2)

/-- Positions of a subset of the range. -/
theorem exists_shifted {lo N : Nat} {S : Finset Nat} (h : S ⊆ Finset.Ico lo (lo + N)) :
    ∃ T : Finset (Fin N), shifted lo T = S := by
  refine ⟨Finset.univ.filter (fun x : Fin N => lo + x.val ∈ S), ?_⟩
  ext y
  simp only [shifted, Finset.mem_image, Finset.mem_filter, Finset.mem_univ, true_and]
  constructor
  · rintro ⟨x, hx, rfl⟩
    exact hx
  · intro hy
    have := Finset.mem_Ico.mp (h hy)
    exact ⟨⟨y - lo, by omega⟩, by rwa [show lo + (y - lo) = y by omega], by simp only; omega⟩

theorem sort_inj {S S' : Finset Nat} (h : S.sort (· ≤ ·) = S'.sort (· ≤ ·)) : S = S' := by
  ext x
  rw [← Finset.mem_sort (· ≤ ·), h, Finset.mem_sort]

theorem finished_set {lo L N q : Nat} (hN : 0 < N) (T : Finset (Fin N)) :
    {b : Fin L → Fin N | createChallenges (drawsIn b) q lo (lo + N) L = .ok (some ((shifted lo T).sort (· ≤ ·)))} =
      {b : Fin L → Fin N | stopsWith q b T} := by
  ext b
  rw [Set.mem_ofPred_eq, Set.mem_ofPred_eq, createChallenges_drawsIn hN]
  constructor
  · rintro ⟨T', h1, h2⟩
    rwa [shifted_inj (sort_inj h2)]
  · exact fun h => ⟨T, h, rfl⟩

theorem unfinished_set {lo L N q : Nat} (hN : 0 < N) :
    {b : Fin L → Fin N | createChallenges (drawsIn b) q lo (lo + N) L = .ok none} =
      {b : Fin L → Fin N | ∃ T, stopsWith q b T}ᶜ := by
  ext b
  rw [Set.mem_ofPred_eq, Set.mem_compl_iff, Set.mem_ofPred_eq]
  constructor
  · rintro h ⟨T, hT⟩
    rw [(createChallenges_drawsIn hN b _).mpr ⟨T, hT, rfl⟩] at h
    cases h
  · intro h
    cases hc : createChallenges (drawsIn b) q lo (lo + N) L with
    | error e =>
      have := ((C24_panics_iff (drawsIn b) q lo (lo + N) L).1.mp ⟨e, hc⟩).2
      omega
    | ok o =>
      cases o with
      | none => rfl
      | some out =>
        obtain ⟨T, hT, -⟩ := (createChallenges_drawsIn hN b out).mp hc
        exact absurd ⟨T, hT⟩ h

/-- All challenge sets are equally likely: of the strings of `L` draws, as many lead to the one as to
the other. -/
theorem C105_uniform (lo hi q L : Nat) (S S' : Finset Nat) (hS : S ⊆ Finset.Ico lo hi) (hS' : S' ⊆ Finset.Ico lo hi)
    (hc : S.card = S'.card) :
    Set.ncard {b : Fin L → Fin (hi - lo) |
        createChallenges (drawsIn b) q lo hi L = .ok (some (S.sort (· ≤ ·)))} =
      Set.ncard {b : Fin L → Fin (hi - lo) |
        createChallenges (drawsIn b) q lo hi L = .ok (some (S'.sort (· ≤ ·)))} := by
  by_cases h : lo < hi
  · obtain ⟨N, rfl⟩ : ∃ N, hi = lo + N := ⟨hi - lo, by omega⟩
    rw [Nat.add_sub_cancel_left]
    obtain ⟨T, rfl⟩ := exists_shifted hS
    obtain ⟨T', rfl⟩ := exists_shifted hS'
    rw [card_shifted, card_shifted] at hc
    rw [finished_set (by omega), finished_set (by omega), stops_card hc]
  · rw [Finset.Ico_eq_empty (by omega), Finset.subset_empty] at hS hS'
    rw [hS, hS']

/-- The exact share of a challenge set: the strings of `L` draws are divided equally among the sets of
`q` indices, apart from those after which the loop is still running. -/
theorem C105_share (lo hi q L : Nat) (h : lo < hi) (S : Finset Nat) (hS : S ⊆ Finset.Ico lo hi) (hc : S.card = q) :
    Set.ncard {b : Fin L → Fin (hi - lo) |
        createChallenges (drawsIn b) q lo hi L = .ok (some (S.sort (· ≤ ·)))} * (hi - lo).choose q +
      Set.ncard {b : Fin L → Fin (hi - lo) | createChallenges (drawsIn b) q lo hi L = .ok none} =
    (hi - lo) ^ L := by
  obtain ⟨N, rfl⟩ : ∃ N, hi = lo + N := ⟨hi - lo, by omega⟩
  rw [Nat.add_sub_cancel_left]
  have hN : 0 < N := by omega
  obtain ⟨T, rfl⟩ := exists_shifted hS
  rw [card_shifted] at hc
  rw [finished_set hN, unfinished_set hN]
  have h1 := count_stops (L := L) hN (fun _ => True) T hc
  simp only [and_true] at h1
  have h2 : Set.ncard {T : Finset (Fin N) | T.card = q} = N.choose q := by
    have e : {T : Finset (Fin N) | T.card = q} = ((Finset.univ : Finset (Fin N)).powersetCard q : Set (Finset (Fin N))) := by
      ext T
      simp
    rw [e, Set.ncard_coe_finset, Finset.card_powersetCard, Finset.card_univ, Fintype.card_fin]
  rw [h2] at h1
  rw [Nat.mul_comm, ← h1, Set.ncard_add_ncard_compl, Nat.card_eq_fintype_card, Fintype.card_fun, Fintype.card_fin,
    Fintype.card_fin]

/-- The loop ends for all but a vanishing share of the draws: at most `choose (hi - lo) (q - 1)` times
`(q - 1) ^ L` of the `(hi - lo) ^ L` strings of draws leave it running. -/
theorem C105_unfinished (lo hi q L : Nat) (hq : 0 < q) (hle : q ≤ hi - lo) :
    Set.ncard {b : Fin L → Fin (hi - lo) | createChallenges (drawsIn b) q lo hi L = .ok none} ≤
      (hi - lo).choose (q - 1) * (q - 1) ^ L := by
  classical
  obtain ⟨N, rfl⟩ : ∃ N, hi = lo + N := ⟨hi - lo, by omega⟩
  rw [Nat.add_sub_cancel_left] at hle ⊢
  have hN : 0 < N := by omega
  have hsub : {b : Fin L → Fin N | createChallenges (drawsIn b) q lo (lo + N) L = .ok none} ⊆
      ((((Finset.univ : Finset (Fin N)).powersetCard (q - 1)).biUnion (fun T => Fintype.piFinset (fun _ : Fin L => T)) :
        Finset (Fin L → Fin N)) : Set (Fin L → Fin N)) := by
    intro b hb
    rw [unfinished_set hN, Set.mem_compl_iff, Set.mem_ofPred_eq] at hb
    have hcard : (firstDraws L b).card < q := by
      by_contra hge
      have hex : ∃ m, q ≤ (firstDraws m b).card := ⟨L, by omega⟩
      refine hb ⟨firstDraws (Nat.find hex) b, Nat.find hex, Nat.find_min' hex (by omega), rfl, fun m' hm' => ?_,
        Nat.find_spec hex⟩
      have := Nat.find_min hex hm'
      omega
    obtain ⟨T, h1, h2, h3⟩ := Finset.exists_subsuperset_card_eq (Finset.subset_univ (firstDraws L b))
      (n := q - 1) (by omega) (by rw [Finset.card_univ, Fintype.card_fin]; omega)
    simp only [Finset.coe_biUnion, Finset.mem_coe, Set.mem_iUnion, Finset.mem_powersetCard, exists_prop]
    refine ⟨T, ⟨h2, h3⟩, ?_⟩
    rw [Fintype.mem_piFinset]
    intro i
    apply h1
    unfold firstDraws
    exact Finset.mem_image_of_mem _ (Finset.mem_filter.mpr ⟨Finset.mem_univ _, i.isLt⟩)
  refine (Set.ncard_le_ncard hsub (Finset.finite_toSet _)).trans ?_
  rw [Set.ncard_coe_finset]
  refine Finset.card_biUnion_le.trans ?_
  rw [Finset.sum_congr rfl (g := fun _ => (q - 1) ^ L) (by
    intro T hT
    rw [Fintype.card_piFinset, Finset.prod_const, Finset.card_univ, Fintype.card_fin, (Finset.mem_powersetCard.mp hT).2]),
    Finset.sum_const, Finset.card_powersetCard, Finset.card_univ, Fintype.card_fin, smul_eq_mul]

/-- The chance that a damaged copy passes a round of `test_pipeline`: among the strings of draws for
which a challenge is made at all, the share that is answered acceptably is `choose good q` out of
`choose n q`, where `good` is the number of blocks that retrieval from the copy restores. -/
theorem C105_round (H Hs : Bytes → Bytes) (hH : ∀ x, (H x).length = 32) (hHs : ∀ x, (Hs x).length = 32)
    (params : PosPara) (p n c : Nat) (cfg : Config params p n c) (hL : params.modeL = 0) (hS : ShortModeOk params n c)
    (hn0 : 0 < n) (hn : LongCountOk n params.cntL) (origin pubdata iv : Bytes)
    (hload : loadData pubdata = .ok ((p : Int), iv))
    (ids : List Bytes) (hids : ids.length = n) (leaves : List Bytes) (tree : MerkleTree) (root : Bytes)
    (hm : generateMerkleTreeFromData Hs ids = .ok (leaves, tree, root))
    (file : Bytes) (hlen : n * params.blockPl ≤ file.length) :
    ∃ out plain, unsealFile H params file (p : Int) iv = .ok out ∧
      copyAndCompress out params.dataL params.unitL params.unitPl = .ok plain ∧
      ∀ (r : UInt8) (q L good : Nat), 0 < q → q ≤ n → good = Set.ncard {k | k < n ∧ Restored params origin plain k} →
        Set.ncard {b : Fin L → Fin n | challengeRound H Hs params origin file pubdata leaves tree root q 0
            { r := r, draw := drawsIn b, fuel := L, sched := [] } = .ok (some ())} * n.choose q =
          good.choose q * Set.ncard {b : Fin L → Fin n | createChallenges (drawsIn b) q 0 n L ≠ .ok none} := by
  classical
  obtain ⟨out, plain, h1, h2, -, h3⟩ := C91_any_file H Hs hH hHs params p n c cfg hL hS hn origin pubdata iv hload
    ids hids leaves tree root hm file hlen
  refine ⟨out, plain, h1, h2, fun r q L good hq hqn hgood => ?_⟩
  have hdiv : div! params.dataL params.blockL = .ok n := by
    have hl := cfg.layout
    rw [div!_of_pos hl.block_pos, hl.cnt]
  have hround : ∀ b : Fin L → Fin n, challengeRound H Hs params origin file pubdata leaves tree root q 0
      { r := r, draw := drawsIn b, fuel := L, sched := [] } = .ok (some ()) ↔
      ∃ T, stopsWith q b T ∧ ∀ x ∈ T, Restored params origin plain x.val := by
    intro b
    have hiff := fun o => createChallenges_drawsIn (lo := 0) (q := q) hn0 b o
    rw [Nat.zero_add] at hiff
    unfold challengeRound
    rw [hdiv, bind_ok]
    have key : ∀ T, stopsWith q b T → ((do
        let resp ← proverRespond H params file tree r ((shifted 0 T).sort (· ≤ ·))
        verifierCheck H Hs params origin pubdata leaves root r ((shifted 0 T).sort (· ≤ ·)) resp 0 []) = .ok (some ()) ↔
        ∀ x ∈ T, Restored params origin plain x.val) := by
      intro T hT
      have hmem : ∀ k, k ∈ (shifted 0 T).sort (· ≤ ·) ↔ ∃ x ∈ T, x.val = k := by
        intro k
        rw [Finset.mem_sort]
        simp [shifted]
      obtain ⟨resp, e1, e2, -⟩ := h3 r ((shifted 0 T).sort (· ≤ ·)) (Finset.sortedLT_sort _).pairwise
        (by
          intro h
          have := Finset.length_sort (s := shifted 0 T) (· ≤ ·)
          rw [h, card_shifted, stopsWith_card hn0 hT] at this
          simp at this
          omega)
        (fun k hk => by
          obtain ⟨x, -, rfl⟩ := (hmem k).mp hk
          exact x.isLt)
      rw [e1, bind_ok, e2]
      constructor
      · intro h x hx
        exact h _ ((hmem _).mpr ⟨x, hx, rfl⟩)
      · intro h k hk
        obtain ⟨x, hx, rfl⟩ := (hmem k).mp hk
        exact h x hx
    constructor
    · intro h
      rw [bind_eq_ok] at h
      obtain ⟨o, ho, h⟩ := h
      cases o with
      | none => cases h
      | some indices =>
        obtain ⟨T, hT, rfl⟩ := (hiff indices).mp ho
        exact ⟨T, hT, (key T hT).mp h⟩
    · rintro ⟨T, hT, hG⟩
      have ho := (hiff _).mpr ⟨T, hT, rfl⟩
      show (createChallenges (drawsIn b) q 0 n L >>= _) = _
      rw [ho, bind_ok]
      exact (key T hT).mpr hG
  obtain ⟨T₀, -, h₀⟩ := Finset.exists_subset_card_eq (s := (Finset.univ : Finset (Fin n))) (n := q)
    (by rw [Finset.card_univ, Fintype.card_fin]; exact hqn)
  simp only [hround]
  have hfin : {b : Fin L → Fin n | createChallenges (drawsIn b) q 0 n L ≠ .ok none} =
      {b : Fin L → Fin n | ∃ T, stopsWith q b T ∧ True} := by
    have := unfinished_set (lo := 0) (L := L) (q := q) hn0
    rw [Nat.zero_add] at this
    ext b
    have hb : createChallenges (drawsIn b) q 0 n L = .ok none ↔ ¬ ∃ T, stopsWith q b T := by
      have := Set.ext_iff.mp this b
      rwa [Set.mem_ofPred_eq, Set.mem_compl_iff, Set.mem_ofPred_eq] at this
    simp only [Set.mem_ofPred_eq, ne_eq, hb, not_not, and_true]
  rw [hfin, count_stops hn0 (fun T => ∀ x ∈ T, Restored params origin plain x.val) T₀ h₀,
    count_stops hn0 (fun _ => True) T₀ h₀]
  have c1 : Set.ncard {T : Finset (Fin n) | T.card = q ∧ True} = n.choose q := by
    have e : {T : Finset (Fin n) | T.card = q ∧ True} =
        ((Finset.univ : Finset (Fin n)).powersetCard q : Set (Finset (Fin n))) := by
      ext T
      simp
    rw [e, Set.ncard_coe_finset, Finset.card_powersetCard, Finset.card_univ, Fintype.card_fin]
  have c2 : Set.ncard {T : Finset (Fin n) | T.card = q ∧ ∀ x ∈ T, Restored params origin plain x.val} =
      good.choose q := by
    have e : {T : Finset (Fin n) | T.card = q ∧ ∀ x ∈ T, Restored params origin plain x.val} =
        (((Finset.univ : Finset (Fin n)).filter (fun x => Restored params origin plain x.val)).powersetCard q :
          Set (Finset (Fin n))) := by
      ext T
      rw [Set.mem_ofPred_eq, Finset.mem_coe, Finset.mem_powersetCard]
      simp only [Finset.subset_iff, Finset.mem_filter, Finset.mem_univ, true_and]
      exact and_comm
    rw [e, Set.ncard_coe_finset, Finset.card_powersetCard]
    congr 1
    rw [hgood, ← Finset.card_map ⟨Fin.val, Fin.val_injective⟩, ← Set.ncard_coe_finset]
    congr 1
    ext k
    simp only [Finset.coe_map, Function.Embedding.coeFn_mk, Set.mem_image, Finset.mem_coe, Finset.mem_filter,
      Finset.mem_univ, true_and, Set.mem_ofPred_eq]
    constructor
    · rintro ⟨x, hx, rfl⟩
      exact ⟨x.isLt, hx⟩
    · rintro ⟨hk, hx⟩
      exact ⟨⟨k, hk⟩, hx, rfl⟩
  rw [c1, c2]
  ring

/-- Independent rounds: the strings of random choices for which all of `k` rounds are passed are the
`k`-tuples of those for which one is. -/
theorem C105_rounds {α : Type} [Finite α] (round : RoundChoices → R (Option Unit)) (mk : α → RoundChoices) (k : Nat) :
    Set.ncard {bs : Fin k → α | runRounds round (List.ofFn (fun i => mk (bs i))) = .ok (some ())} =
      Set.ncard {b : α | round (mk b) = .ok (some ())} ^ k := by
  classical
  have : Fintype α := Fintype.ofFinite α
  have hall : ∀ chs : List RoundChoices, runRounds round chs = .ok (some ()) ↔ ∀ ch ∈ chs, round ch = .ok (some ()) := by
    intro chs
    induction chs with
    | nil => simp [runRounds, pure, Except.pure]
    | cons ch chs ih =>
      unfold runRounds
      rw [bind_eq_ok, List.forall_mem_cons, ← ih]
      constructor
      · rintro ⟨a, ha, h⟩
        cases a with
        | none => cases h
        | some u => exact ⟨ha, h⟩
      · rintro ⟨h1, h2⟩
        exact ⟨_, h1, h2⟩
  have e : {bs : Fin k → α | runRounds round (List.ofFn (fun i => mk (bs i))) = .ok (some ())} =
      (Fintype.piFinset (fun _ : Fin k => Finset.univ.filter (fun b : α => round (mk b) = .ok (some ()))) :
        Set (Fin k → α)) := by
    ext bs
    rw [Set.mem_ofPred_eq, hall, Finset.mem_coe, Fintype.mem_piFinset]
    simp [List.mem_ofFn]
  have e' : {b : α | round (mk b) = .ok (some ())} =
      ((Finset.univ.filter (fun b : α => round (mk b) = .ok (some ())) : Finset α) : Set α) := by
    ext b
    simp
  rw [e, e', Set.ncard_coe_finset, Set.ncard_coe_finset, Fintype.card_piFinset, Finset.prod_const, Finset.card_univ,
    Fintype.card_fin]

/- Two of three indices: with two draws each pair has 2 of the 9 strings, 3 leave the loop running. -/
example : ((List.range 9).map (fun i => createChallenges
      (drawsIn (![⟨i / 3 % 3, by omega⟩, ⟨i % 3, by omega⟩] : Fin 2 → Fin 3)) 2 5 8 2)) =
    [.ok none, .ok (some [5, 6]), .ok (some [5, 7]), .ok (some [5, 6]), .ok none, .ok (some [6, 7]),
      .ok (some [5, 7]), .ok (some [6, 7]), .ok none] := by decide +kernel

example : Set.ncard {b : Fin 2 → Fin (8 - 5) | createChallenges (drawsIn b) 2 5 8 2 =
      .ok (some ((({5, 6} : Finset Nat)).sort (· ≤ ·)))} * Nat.choose (8 - 5) 2 +
    Set.ncard {b : Fin 2 → Fin (8 - 5) | createChallenges (drawsIn b) 2 5 8 2 = .ok none} = (8 - 5) ^ 2 :=
  C105_share 5 8 2 2 (by norm_num) {5, 6} (by decide) (by decide)

/- Three blocks, a byte of the second damaged: retrieval restores one block, and one of the three
possible draws of a round with one challenge is answered acceptably. -/
example : (match copyAndPad (toyFile 189) 189 63 with
    | .ok padded => (match sealFile toyHash (toyParams 3 1 0 0 1 1 1) padded P_512 [1, 2, 3] with
      | .ok st => (match generateMerkleTreeFromData toyHash st.ids with
        | .ok (leaves, tree, root) => decide
            ((([0, 1, 2] : List (Fin 3)).map (fun x => decide (challengeRound toyHash toyHash (toyParams 3 1 0 0 1 1 1) (toyFile 189)
              (st.file.set 70 99) (saveData (zeros 300) P_512 [1, 2, 3]) leaves tree root 1 0
              { r := 7, draw := drawsIn (fun _ : Fin 1 => x), fuel := 1, sched := [] } = .ok (some ())))) =
            [true, false, false])
        | _ => false)
      | _ => false)
    | _ => false) = true := by decide +kernel

end PoS
