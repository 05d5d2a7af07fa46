import Verif.Properties.Replica
import Verif.Spec.Oracle
import Mathlib.Data.Fintype.Pi
import Mathlib.Data.Fintype.BigOperators

/-
C126: the chance that sealing loses a unit, over all hash functions.
-/

namespace PoS

/-! ### The strings listed are all that is hashed -/

theorem chain_agree {H H' : Bytes → Bytes} {data : Bytes} {num count : Nat}
    (h : ∀ x ∈ selectionStrings H data num count, H' x = H x) :
    ∀ j < pieces num count, prefixChain H' data j = prefixChain H data j := by
  intro j
  induction j with
  | zero =>
    intro _
    unfold prefixChain
    rw [h data (List.mem_cons_self ..)]
  | succ j ih =>
    intro hj
    have ih := ih (by omega)
    unfold prefixChain
    rw [ih, h (prefixChain H data j)]
    exact List.mem_cons_of_mem _ (List.mem_map.mpr ⟨j, List.mem_range.mpr (by omega), rfl⟩)

theorem drawn_agree {H H' : Bytes → Bytes} {data : Bytes} {num count : Nat}
    (h : ∀ x ∈ selectionStrings H data num count, H' x = H x) {i : Nat} (hi : i < available num count) :
    drawn H' data num i = drawn H data num i := by
  have hc := chain_agree h
  have hb : ∀ t, t / 16 < pieces num count → streamByte H' data t = streamByte H data t := by
    intro t ht
    unfold streamByte
    rw [hc _ ht]
  unfold drawn
  unfold available at hi
  unfold pieces at hb
  by_cases h1 : num ≤ 256
  · rw [if_pos h1] at hi hb ⊢
    rw [if_pos h1, hb i (by omega)]
  · rw [if_neg h1] at hi hb ⊢
    rw [if_neg h1]
    by_cases h2 : num ≤ 65536
    · rw [if_pos h2] at hi hb ⊢
      rw [if_pos h2, hb _ (by omega), hb _ (by omega)]
    · rw [if_neg h2] at hi hb ⊢
      rw [if_neg h2, hb _ (by omega), hb _ (by omega), hb _ (by omega)]

theorem hashLong_agree {H H' : Bytes → Bytes} {n cntL k : Nat} {id : Bytes}
    (h : k ≠ 0 → ∀ x ∈ selectionStrings H id n (if cntL = 0 then k / 10 + 1 else cntL), H' x = H x) :
    hashLong H' n cntL id k = hashLong H n cntL id k := by
  unfold hashLong
  by_cases hk : k = 0
  · rw [if_pos hk, if_pos hk]
  · rw [if_neg hk, if_neg hk]
    simp only []
    congr 3
    apply List.map_congr_left
    intro i hi
    rw [drawn_agree (h hk) (List.mem_range.mp hi)]

theorem hashShort_agree {H H' : Bytes → Bytes} {c cntS j : Nat} {seed : Bytes}
    (h : ∀ x ∈ selectionStrings H seed c cntS, H' x = H x) :
    hashShort H' c cntS seed j = hashShort H c cntS seed j := by
  unfold hashShort
  congr 4
  apply List.map_congr_left
  intro i hi
  rw [drawn_agree h (List.mem_range.mp hi)]

namespace Sealing

variable {S : Sealing} {n cntL cntS : Nat} {H H' : Bytes → Bytes}

theorem maskInput_agree {deps : List (List Bytes)} {chain : Bytes} {b : List Bytes} {j : Nat}
    (h : ∀ x ∈ (S.withHash n cntL cntS H).shortStrings cntS b j, H' x = H x) :
    (S.withHash n cntL cntS H').maskInput deps chain b j = (S.withHash n cntL cntS H).maskInput deps chain b j := by
  unfold maskInput
  have : (S.withHash n cntL cntS H').short (if j = 0 then [] else b.getD (j - 1) []) j =
      (S.withHash n cntL cntS H).short (if j = 0 then [] else b.getD (j - 1) []) j := hashShort_agree h
  rw [this]

theorem stepUnit_agree {deps : List (List Bytes)} {chain : Bytes} {b : List Bytes} {j : Nat}
    (h : ∀ x ∈ (S.withHash n cntL cntS H).unitStrings cntS deps chain b j, H' x = H x) :
    (S.withHash n cntL cntS H').stepUnit deps chain b j = (S.withHash n cntL cntS H).stepUnit deps chain b j := by
  have hm := maskInput_agree (S := S) (n := n) (cntL := cntL) (cntS := cntS) (H := H) (H' := H') (deps := deps)
    (chain := chain) (b := b) (j := j) (fun x hx => h x (List.mem_append_left _ hx))
  have hh : H' ((S.withHash n cntL cntS H).maskInput deps chain b j) = H ((S.withHash n cntL cntS H).maskInput deps chain b j) :=
    h _ (List.mem_append_right _ (List.mem_singleton.mpr rfl))
  unfold stepUnit
  rw [hm]
  show b.set j (leBytes S.unitPl (S.enc ((_ + leNat (H' _)) % S.p))) = _
  rw [hh]
  rfl

theorem sealState_succ (T : Sealing) (deps : List (List Bytes)) (chain : Bytes) (b : List Bytes) (r i : Nat) :
    T.sealState deps chain b r (i + 1) = T.stepUnit deps chain (T.sealState deps chain b r i) i := by
  unfold sealState
  rw [List.range_succ, List.foldl_append]
  rfl

theorem sealState_round (T : Sealing) (deps : List (List Bytes)) (chain : Bytes) (b : List Bytes) (r : Nat) :
    T.sealState deps chain b (r + 1) 0 = T.sealState deps chain b r T.c := by
  unfold sealState
  rw [Function.iterate_succ_apply']
  rfl

theorem sealState_agree {deps : List (List Bytes)} {chain : Bytes} {b : List Bytes} :
    ∀ r i, (∀ x ∈ (S.withHash n cntL cntS H).blockStrings cntS deps chain b r i, H' x = H x) →
      (S.withHash n cntL cntS H').sealState deps chain b r i = (S.withHash n cntL cntS H).sealState deps chain b r i := by
  have units : ∀ r, (S.withHash n cntL cntS H').sealState deps chain b r 0 = (S.withHash n cntL cntS H).sealState deps chain b r 0 →
      ∀ i, (∀ x ∈ (List.range i).flatMap (fun i => (S.withHash n cntL cntS H).unitStrings cntS deps chain
        ((S.withHash n cntL cntS H).sealState deps chain b r i) i), H' x = H x) →
      (S.withHash n cntL cntS H').sealState deps chain b r i = (S.withHash n cntL cntS H).sealState deps chain b r i := by
    intro r h0 i
    induction i with
    | zero => exact fun _ => h0
    | succ i ih =>
      intro h
      rw [List.range_succ, List.flatMap_append] at h
      rw [sealState_succ, sealState_succ, ih (fun x hx => h x (List.mem_append_left _ hx))]
      exact stepUnit_agree (fun x hx => h x (List.mem_append_right _ (by simpa using hx)))
  intro r
  induction r with
  | zero =>
    intro i h
    exact units 0 rfl i (fun x hx => h x (List.mem_append_right _ hx))
  | succ r ih =>
    intro i h
    refine units (r + 1) ?_ i (fun x hx => h x (List.mem_append_right _ hx))
    rw [sealState_round, sealState_round]
    refine ih _ (fun x hx => h x (List.mem_append_left _ ?_))
    rw [List.range_succ, List.flatMap_append]
    rcases List.mem_append.mp hx with hx | hx
    · exact List.mem_append_left _ hx
    · refine List.mem_append_right _ ?_
      have hx : x ∈ (List.range S.c).flatMap (fun i => (S.withHash n cntL cntS H).unitStrings cntS deps chain
        ((S.withHash n cntL cntS H).sealState deps chain b r i) i) := hx
      rw [List.flatMap_singleton]
      exact hx

theorem sealOne_eq_state (T : Sealing) (deps : List (List Bytes)) (chain : Bytes) (b : List Bytes) :
    T.sealOne deps chain b = T.sealState deps chain b T.rounds 0 := rfl

/-- The dependencies and the chaining value of block `k`. -/
theorem context_agree {done : List (List Bytes)} {k : Nat}
    (hid : k ≠ 0 → H' (done.getD (k - 1) []).flatten = H (done.getD (k - 1) []).flatten)
    (hl : ∀ x ∈ (S.withHash n cntL cntS H).longStrings n cntL done k, H' x = H x) :
    (S.withHash n cntL cntS H').dependencies done k = (S.withHash n cntL cntS H).dependencies done k ∧
    (S.withHash n cntL cntS H').chaining done k = (S.withHash n cntL cntS H).chaining done k := by
  unfold longStrings at hl
  unfold dependencies chaining
  by_cases hk : k = 0
  · subst hk
    exact ⟨rfl, rfl⟩
  · rw [if_neg hk] at hl
    rw [if_neg hk, if_neg hk]
    have hid := hid hk
    constructor
    · show (hashLong H' n cntL (H' _) k).map _ = (hashLong H n cntL (H _) k).map _
      have : hashLong H' n cntL (H (done.getD (k - 1) []).flatten) k = hashLong H n cntL (H (done.getD (k - 1) []).flatten) k :=
        hashLong_agree (fun _ => hl)
      rw [hid, this]
    · exact hid

/-- The previous block is among the strings hashed before block `k`. -/
theorem block_listed (T : Sealing) (plain : Nat → List Bytes) {k : Nat} (hk : k ≠ 0) :
    ((T.sealedBlocks plain k).getD (k - 1) []).flatten ∈ T.fileStrings n cntL cntS plain k := by
  obtain ⟨m, rfl⟩ := Nat.exists_eq_succ_of_ne_zero hk
  rw [Nat.succ_sub_one, sealedBlocks_last T plain (Nat.lt_succ_self m)]
  unfold fileStrings
  exact List.mem_append_right _ (List.mem_singleton.mpr rfl)

theorem sealedBlocks_agree (plain : Nat → List Bytes) :
    ∀ k, (∀ x ∈ (S.withHash n cntL cntS H).fileStrings n cntL cntS plain k, H' x = H x) →
      (S.withHash n cntL cntS H').sealedBlocks plain k = (S.withHash n cntL cntS H).sealedBlocks plain k := by
  intro k
  induction k with
  | zero => exact fun _ => rfl
  | succ k ih =>
    intro h
    unfold fileStrings at h
    simp only [] at h
    have hf := fun x hx => h x (List.mem_append_left _ (List.mem_append_left _ (List.mem_append_left _ hx)))
    obtain ⟨hd, hc⟩ := context_agree (S := S) (n := n) (cntL := cntL) (cntS := cntS) (H := H) (H' := H')
      (done := (S.withHash n cntL cntS H).sealedBlocks plain k) (k := k) (fun hk => hf _ (block_listed _ plain hk))
      (fun x hx => h x (List.mem_append_left _ (List.mem_append_left _ (List.mem_append_right _ hx))))
    show (S.withHash n cntL cntS H').sealedBlocks plain k ++ [(S.withHash n cntL cntS H').sealOne
        ((S.withHash n cntL cntS H').dependencies ((S.withHash n cntL cntS H').sealedBlocks plain k) k)
        ((S.withHash n cntL cntS H').chaining ((S.withHash n cntL cntS H').sealedBlocks plain k) k) (plain k)] =
      (S.withHash n cntL cntS H).sealedBlocks plain k ++ [_]
    rw [ih hf, hd, hc, sealOne_eq_state, sealOne_eq_state]
    rw [show (S.withHash n cntL cntS H').rounds = (S.withHash n cntL cntS H).rounds from rfl, sealState_agree _ _
      (fun x hx => h x (List.mem_append_left _ (List.mem_append_right _ hx)))]

/-- Before the mask of a unit is hashed, the mask and the value it will be added to depend on the hash of the strings
listed only. -/
theorem at_agree (plain : Nat → List Bytes) (k r i : Nat)
    (h : ∀ x ∈ (S.withHash n cntL cntS H).stringsBefore n cntL cntS plain k r i, H' x = H x) :
    (S.withHash n cntL cntS H').maskAt plain k r i = (S.withHash n cntL cntS H).maskAt plain k r i ∧
    (S.withHash n cntL cntS H').inputAt plain k r i =
      (leNat (((S.withHash n cntL cntS H).sealState ((S.withHash n cntL cntS H).dependencies
          ((S.withHash n cntL cntS H).sealedBlocks plain k) k)
        ((S.withHash n cntL cntS H).chaining ((S.withHash n cntL cntS H).sealedBlocks plain k) k) (plain k) r i).getD i []) +
        leNat (H' ((S.withHash n cntL cntS H).maskAt plain k r i))) % S.p := by
  unfold stringsBefore at h
  simp only [] at h
  have hf := fun x hx => h x (List.mem_append_left _ (List.mem_append_left _ (List.mem_append_left _ hx)))
  obtain ⟨hd, hc⟩ := context_agree (S := S) (n := n) (cntL := cntL) (cntS := cntS) (H := H) (H' := H')
    (done := (S.withHash n cntL cntS H).sealedBlocks plain k) (k := k) (fun hk => hf _ (block_listed _ plain hk))
    (fun x hx => h x (List.mem_append_left _ (List.mem_append_left _ (List.mem_append_right _ hx))))
  have hs := sealState_agree (S := S) (n := n) (cntL := cntL) (cntS := cntS) (H := H) (H' := H')
    (deps := (S.withHash n cntL cntS H).dependencies ((S.withHash n cntL cntS H).sealedBlocks plain k) k)
    (chain := (S.withHash n cntL cntS H).chaining ((S.withHash n cntL cntS H).sealedBlocks plain k) k) (b := plain k) r i
    (fun x hx => h x (List.mem_append_left _ (List.mem_append_right _ hx)))
  have hm := maskInput_agree (S := S) (n := n) (cntL := cntL) (cntS := cntS) (H := H) (H' := H')
    (deps := (S.withHash n cntL cntS H).dependencies ((S.withHash n cntL cntS H).sealedBlocks plain k) k)
    (chain := (S.withHash n cntL cntS H).chaining ((S.withHash n cntL cntS H).sealedBlocks plain k) k)
    (fun x hx => h x (List.mem_append_right _ hx))
  unfold maskAt inputAt encoderInput
  simp only []
  rw [sealedBlocks_agree plain k hf, hd, hc, hs, hm]
  exact ⟨rfl, rfl⟩

end Sealing

/-! ### Counting -/

theorem oracle_length {H₀ : Bytes → Bytes} (h0 : ∀ x, (H₀ x).length = 32) {Q : Finset Bytes} (f : Q → Fin (256 ^ 32)) (x : Bytes) :
    (oracle H₀ Q f x).length = 32 := by
  unfold oracle
  split
  · exact leBytes_length ..
  · exact h0 x

/-- In how many tables a unit is lost at one place, where the input of its mask is in `Q` and was not hashed before. -/
theorem lost_at {S : Sealing} (hp : 256 ^ 32 ≤ S.p) (n cntL cntS : Nat) (H₀ : Bytes → Bytes) (Q : Finset Bytes)
    (plain : Nat → List Bytes) (k r i : Nat) :
    Set.ncard {f : Q → Fin (256 ^ 32) |
      (S.withHash n cntL cntS (oracle H₀ Q f)).maskAt plain k r i ∈ Q ∧
      (S.withHash n cntL cntS (oracle H₀ Q f)).maskAt plain k r i ∉
        (S.withHash n cntL cntS (oracle H₀ Q f)).stringsBefore n cntL cntS plain k r i ∧
      (S.withHash n cntL cntS (oracle H₀ Q f)).inputAt plain k r i = 0} * 256 ^ 32 ≤ (256 ^ 32) ^ Q.card := by
  classical
  set T := fun f : Q → Fin (256 ^ 32) => S.withHash n cntL cntS (oracle H₀ Q f) with hT
  set A : Set (Q → Fin (256 ^ 32)) := {f | (T f).maskAt plain k r i ∈ Q ∧
    (T f).maskAt plain k r i ∉ (T f).stringsBefore n cntL cntS plain k r i ∧ (T f).inputAt plain k r i = 0} with hA
  show A.ncard * 256 ^ 32 ≤ _
  -- replacing the value at the mask
  let g : (Q → Fin (256 ^ 32)) × Fin (256 ^ 32) → (Q → Fin (256 ^ 32)) := fun fd x =>
    if x.1 = (T fd.1).maskAt plain k r i then fd.2 else fd.1 x
  have hag : ∀ f ∈ A, ∀ d, ∀ x ∈ (T f).stringsBefore n cntL cntS plain k r i,
      oracle H₀ Q (g (f, d)) x = oracle H₀ Q f x := by
    intro f hf d x hx
    have hne : x ≠ (T f).maskAt plain k r i := fun e => hf.2.1 (e ▸ hx)
    unfold oracle
    by_cases hq : x ∈ Q
    · rw [dif_pos hq, dif_pos hq]
      show leBytes 32 (if x = (T f).maskAt plain k r i then d else f ⟨x, hq⟩ : Fin (256 ^ 32)) = _
      rw [if_neg hne]
    · rw [dif_neg hq, dif_neg hq]
  have hinj : Set.InjOn g (A ×ˢ (Set.univ : Set (Fin (256 ^ 32)))) := by
    rintro ⟨f, d⟩ ⟨hf, -⟩ ⟨f', d'⟩ ⟨hf', -⟩ he
    have hf : f ∈ A := hf
    have hf' : f' ∈ A := hf'
    obtain ⟨e1, e2⟩ := Sealing.at_agree (S := S) plain k r i (hag f hf d)
    obtain ⟨e1', e2'⟩ := Sealing.at_agree (S := S) plain k r i (hag f' hf' d')
    rw [he, e1'] at e1
    rw [he, e2', ← e1] at e2
    obtain ⟨-, z⟩ := Sealing.at_agree (S := S) (n := n) (cntL := cntL) (cntS := cntS) (H := oracle H₀ Q f)
      (H' := oracle H₀ Q f) plain k r i (fun _ _ => rfl)
    obtain ⟨-, z'⟩ := Sealing.at_agree (S := S) (n := n) (cntL := cntL) (cntS := cntS) (H := oracle H₀ Q f')
      (H' := oracle H₀ Q f') plain k r i (fun _ _ => rfl)
    have hz := hf.2.2
    have hz' := hf'.2.2
    simp only [hT] at hz hz'
    rw [z] at hz
    rw [z', e1] at hz'
    have hm : (T f).maskAt plain k r i ∈ Q := hf.1
    have hmm : (T f').maskAt plain k r i = (T f).maskAt plain k r i := e1
    have val : ∀ φ : Q → Fin (256 ^ 32), leNat (oracle H₀ Q φ ((T f).maskAt plain k r i)) = (φ ⟨_, hm⟩).1 := by
      intro φ
      unfold oracle
      rw [dif_pos hm]
      exact leNat_leBytes (φ ⟨_, hm⟩).2
    have v1 : leNat (oracle H₀ Q f ((S.withHash n cntL cntS (oracle H₀ Q f)).maskAt plain k r i)) = (f ⟨_, hm⟩).1 := val f
    have v2 : leNat (oracle H₀ Q f' ((S.withHash n cntL cntS (oracle H₀ Q f)).maskAt plain k r i)) = (f' ⟨_, hm⟩).1 := val f'
    rw [v1] at hz
    rw [v2] at hz'
    -- the two values at the mask are the same
    have hval : (f ⟨_, hm⟩).1 = (f' ⟨_, hm⟩).1 := by
      have l1 := (f ⟨_, hm⟩).2
      have l2 := (f' ⟨_, hm⟩).2
      generalize (f ⟨_, hm⟩).1 = a at hz l1 ⊢
      generalize (f' ⟨_, hm⟩).1 = a' at hz' l2 ⊢
      generalize leNat (List.getD _ i []) = v' at e2 hz'
      generalize leNat (List.getD _ i []) = v at e2 hz
      have h1 : v ≡ v' [MOD S.p] := (Nat.ModEq.add_right_cancel' _ (show _ ≡ _ [MOD S.p] from e2)).symm
      have h2 : v + a ≡ v' + a' [MOD S.p] := by
        show _ % _ = _ % _
        rw [hz, hz']
      have h3 : a ≡ a' [MOD S.p] := h1.add_left_cancel h2
      have h3 : a % S.p = a' % S.p := h3
      rwa [Nat.mod_eq_of_lt (by omega), Nat.mod_eq_of_lt (by omega)] at h3
    have hff : f = f' := by
      funext x
      by_cases hx : x.1 = (T f).maskAt plain k r i
      · have : x = ⟨_, hm⟩ := Subtype.ext hx
        rw [this]
        exact Fin.ext hval
      · have := congrFun he x
        simp only [g, hmm, if_neg hx] at this
        exact this
    have hdd : d = d' := by
      have := congrFun he ⟨_, hm⟩
      simp only [g, hmm, if_true] at this
      exact this
    rw [hff, hdd]
  have h1 : (A ×ˢ (Set.univ : Set (Fin (256 ^ 32)))).ncard = A.ncard * 256 ^ 32 := by
    rw [Set.ncard_prod, Set.ncard_univ, Nat.card_fin]
  rw [← h1, ← hinj.ncard_image]
  refine le_trans (Set.ncard_le_ncard (Set.subset_univ _) Set.finite_univ) (le_of_eq ?_)
  rw [Set.ncard_univ, Nat.card_fun, Nat.card_fin, Nat.card_eq_fintype_card, Fintype.card_coe]

/-- The union of finitely many sets of tables, each of at most `M / N` tables. -/
theorem ncard_union_mul {α ι : Type} [Finite α] (B : ι → Set α) (N M : Nat) (h : ∀ x, (B x).ncard * N ≤ M) (s : Finset ι) :
    (⋃ x ∈ s, B x).ncard * N ≤ s.card * M := by
  classical
  induction s using Finset.induction_on with
  | empty => simp
  | insert a s ha ih =>
    rw [Finset.set_biUnion_insert, Finset.card_insert_of_notMem ha]
    calc (B a ∪ ⋃ x ∈ s, B x).ncard * N ≤ ((B a).ncard + (⋃ x ∈ s, B x).ncard) * N :=
          Nat.mul_le_mul_right _ (Set.ncard_union_le _ _)
      _ = (B a).ncard * N + (⋃ x ∈ s, B x).ncard * N := Nat.add_mul ..
      _ ≤ M + s.card * M := Nat.add_le_add (h a) ih
      _ = (s.card + 1) * M := by ring

/-! ### C126: how likely it is that sealing loses a unit -/

/-- Two hash functions that agree on the strings listed in `fileStrings` seal a file alike. -/
theorem C126_strings (H H' : Bytes → Bytes) (hH : ∀ x, (H x).length = 32) (hH' : ∀ x, (H' x).length = 32) (params : PosPara)
    (p n c : Nat) (cfg : Config params p n c) (hmodeL : params.modeL = 0) (hmodeS : params.modeS = 0)
    (hn : LongCountOk n params.cntL) (hc : ShortCountOk c params.cntS) (file iv : Bytes)
    (hlen : n * params.blockPl ≤ file.length) (hu : UnitsBelow params p n c file)
    (S : Sealing) (hd : describes S H params p n c iv)
    (h : ∀ x ∈ S.fileStrings n params.cntL params.cntS (fun k => (List.range c).map
      (fun j => readFile file ((k * c + j) * params.unitPl) params.unitPl)) n, H' x = H x) :
    ∃ st st', sealFile H params file (p : Int) iv = .ok st ∧ sealFile H' params file (p : Int) iv = .ok st' ∧
      st'.file = st.file ∧ st'.ids = st.ids := by
  obtain ⟨oL, oS⟩ := hashModes_ok (n := n) (c := c) hmodeL hmodeS hn hc
  set plain : Nat → List Bytes := fun k => (List.range c).map
      (fun j => readFile file ((k * c + j) * params.unitPl) params.unitPl) with hplain
  have hS : ∀ G : Bytes → Bytes, describes (S.withHash n params.cntL params.cntS G) G params p n c iv := by
    obtain ⟨-, h2, h3, h4, h5, h6, h7, -, -⟩ := hd
    intro G
    refine ⟨rfl, h2, h3, h4, h5, h6, h7, ?_, ?_⟩
    · unfold longOf
      rw [if_pos hmodeL]
      rfl
    · unfold shortOf
      rw [if_pos hmodeS, ← h5]
      rfl
  have hSS : S = S.withHash n params.cntL params.cntS H := by
    exact (describes_sealingOf hd).trans (describes_sealingOf (hS H)).symm
  rw [hSS] at h
  have hb := Sealing.sealedBlocks_agree (S := S) (H := H) (H' := H') plain n h
  obtain ⟨st, a1, a2, a3, a4, a5⟩ := C64_seal_exact H hH params p n c cfg oL oS file iv hlen hu _ (hS H)
  obtain ⟨st', b1, b2, b3, b4, b5⟩ := C64_seal_exact H' hH' params p n c cfg oL oS file iv hlen hu _ (hS H')
  have listed : ∀ k < n, ((S.withHash n params.cntL params.cntS H).sealOne
      ((S.withHash n params.cntL params.cntS H).dependencies ((S.withHash n params.cntL params.cntS H).sealedBlocks plain k) k)
      ((S.withHash n params.cntL params.cntS H).chaining ((S.withHash n params.cntL params.cntS H).sealedBlocks plain k) k)
      (plain k)).flatten ∈ (S.withHash n params.cntL params.cntS H).fileStrings n params.cntL params.cntS plain n := by
    intro k hk
    have mono : ∀ d, ((S.withHash n params.cntL params.cntS H).fileStrings n params.cntL params.cntS plain (k + 1)) ⊆
        (S.withHash n params.cntL params.cntS H).fileStrings n params.cntL params.cntS plain (k + 1 + d) := by
      intro d
      induction d with
      | zero => exact List.Subset.refl _
      | succ d ih =>
        intro x hx
        exact List.mem_append_left _ (List.mem_append_left _ (List.mem_append_left _ (ih hx)))
    have := mono (n - (k + 1)) (List.mem_append_right _ (List.mem_singleton.mpr rfl))
    rwa [show k + 1 + (n - (k + 1)) = n by omega] at this
  have hblk : ∀ k < n, readFile st'.file (k * params.blockPl) params.blockPl = readFile st.file (k * params.blockPl) params.blockPl := by
    intro k hk
    rw [a2 k hk, b2 k hk, hb]
  refine ⟨st, st', a1, b1, ?_, ?_⟩
  · apply List.ext_getElem?
    intro i
    rcases Nat.lt_or_ge i (n * params.blockPl) with hi | hi
    · have hpl : 0 < params.blockPl := by
        rcases Nat.eq_zero_or_pos params.blockPl with h0 | h0
        · rw [h0, Nat.mul_zero] at hi
          omega
        · exact h0
      have hk : i / params.blockPl < n := (Nat.div_lt_iff_lt_mul hpl).mpr hi
      have hr := congrArg (fun l => l[i % params.blockPl]?) (hblk _ hk)
      simp only [readFile_getElem?, if_pos (Nat.mod_lt i hpl), Nat.div_add_mod' i params.blockPl] at hr
      rw [List.getElem?_eq_getElem (by omega : i < st'.file.length), List.getElem?_eq_getElem (by omega : i < st.file.length)] at hr ⊢
      exact hr
    · rw [b5 i hi, a5 i hi]
  · rw [a3, b3]
    apply List.map_congr_left
    intro k hk
    have hk := List.mem_range.mp hk
    rw [hblk k hk]
    apply h
    rw [a2 k hk, sealedBlocks_last _ plain hk]
    exact listed k hk

/-- Meets the hypotheses with two different hash functions. -/
example (iv : Bytes) : ∃ H' : Bytes → Bytes, H' ≠ toyHash ∧ ∃ st st',
    sealFile toyHash (toyParams 2 2 0 0 1 1 2) (zeros 256) P_512 iv = .ok st ∧
    sealFile H' (toyParams 2 2 0 0 1 1 2) (zeros 256) P_512 iv = .ok st' ∧ st'.file = st.file ∧ st'.ids = st.ids := by
  classical
  obtain ⟨p, hp, cfg⟩ := toy_config 2 2 0 0 1 1 2 (by norm_num)
  have hp0 : 0 < p := cfg.prime.pos
  set S := sealingOf toyHash (toyParams 2 2 0 0 1 1 2) p 2 iv (longOf toyHash (toyParams 2 2 0 0 1 1 2) 2)
    (shortOf toyHash (toyParams 2 2 0 0 1 1 2) 2 2) with hS
  obtain ⟨x, hx⟩ := Infinite.exists_notMem_finset (S.fileStrings 2 1 1 (fun k => (List.range 2).map
      (fun j => readFile (zeros 256) ((k * 2 + j) * 64) 64)) 2).toFinset
  obtain ⟨y, hy, hy'⟩ : ∃ y : Bytes, y.length = 32 ∧ y ≠ toyHash x := by
    by_cases h : toyHash x = zeros 32
    · refine ⟨leBytes 32 1, leBytes_length .., fun e => ?_⟩
      rw [h] at e
      exact absurd e (by decide +kernel)
    · exact ⟨zeros 32, zeros_length 32, fun e => h e.symm⟩
  refine ⟨fun z => if z = x then y else toyHash z, fun e => hy' ?_, ?_⟩
  · have := congrFun e x
    simpa using this
  · rw [← hp]
    refine C126_strings toyHash _ toyHash_length (fun z => ?_) _ p 2 2 cfg rfl rfl (Or.inl (by norm_num)) (Or.inl (by norm_num))
      (zeros 256) iv (by show 2 * (2 * 64) ≤ (zeros 256).length; rw [zeros_length]) (fun j hj => ?_) S
      ⟨rfl, rfl, rfl, rfl, rfl, rfl, rfl, rfl, rfl⟩ (fun z hz => ?_)
    · show (if z = x then y else toyHash z).length = 32
      split
      · exact hy
      · exact toyHash_length z
    · have : readFile (zeros 256) (j * 64) 64 = zeros 64 := by
        have hj : j < 4 := hj
        interval_cases j <;> decide +kernel
      show leNat (readFile (zeros 256) (j * 64) 64) < p
      rw [this, show leNat (zeros 64) = 0 by decide +kernel]
      exact hp0
    · have : z ≠ x := fun e => hx (List.mem_toFinset.mpr (e ▸ hz))
      exact if_neg this

/-- Over all tables for the strings in `Q`: a unit whose mask is hashed from a string in `Q` that was not hashed before
is zero when it is encoded, at one of the places of the rounds from `r₀` on, in at most one of `256 ^ 32` cases per place. -/
theorem C126_lost (S : Sealing) (hp : 256 ^ 32 ≤ S.p) (n cntL cntS : Nat) (H₀ : Bytes → Bytes) (Q : Finset Bytes)
    (plain : Nat → List Bytes) (r₀ : Nat) :
    Set.ncard {f : Q → Fin (256 ^ 32) | ∃ k < n, ∃ r, r₀ ≤ r ∧ r < S.rounds ∧ ∃ i < S.c,
      (S.withHash n cntL cntS (oracle H₀ Q f)).maskAt plain k r i ∈ Q ∧
      (S.withHash n cntL cntS (oracle H₀ Q f)).maskAt plain k r i ∉
        (S.withHash n cntL cntS (oracle H₀ Q f)).stringsBefore n cntL cntS plain k r i ∧
      (S.withHash n cntL cntS (oracle H₀ Q f)).inputAt plain k r i = 0} * 256 ^ 32 ≤
    n * ((S.rounds - r₀) * S.c) * (256 ^ 32) ^ Q.card := by
  classical
  have := ncard_union_mul (fun x : Nat × Nat × Nat => {f : Q → Fin (256 ^ 32) |
      (S.withHash n cntL cntS (oracle H₀ Q f)).maskAt plain x.1 x.2.1 x.2.2 ∈ Q ∧
      (S.withHash n cntL cntS (oracle H₀ Q f)).maskAt plain x.1 x.2.1 x.2.2 ∉
        (S.withHash n cntL cntS (oracle H₀ Q f)).stringsBefore n cntL cntS plain x.1 x.2.1 x.2.2 ∧
      (S.withHash n cntL cntS (oracle H₀ Q f)).inputAt plain x.1 x.2.1 x.2.2 = 0}) (256 ^ 32) ((256 ^ 32) ^ Q.card)
    (fun x => lost_at hp n cntL cntS H₀ Q plain x.1 x.2.1 x.2.2)
    (Finset.range n ×ˢ Finset.Ico r₀ S.rounds ×ˢ Finset.range S.c)
  rw [Finset.card_product, Finset.card_product, Finset.card_range, Finset.card_range, Nat.card_Ico] at this
  refine le_trans (Nat.mul_le_mul_right _ (Set.ncard_le_ncard ?_ (Set.toFinite _))) this
  rintro f ⟨k, hk, r, h1, h2, i, hi, hf⟩
  refine Set.mem_biUnion (x := (k, r, i)) ?_ hf
  exact Finset.mem_coe.mpr (Finset.mem_product.mpr ⟨Finset.mem_range.mpr hk, Finset.mem_product.mpr
    ⟨Finset.mem_Ico.mpr ⟨h1, h2⟩, Finset.mem_range.mpr hi⟩⟩)

/-- One unit of one block, sealed once with the identity for the encoder. -/
def oneUnit : Sealing where
  H := toyHash
  enc := id
  p := 256 ^ 32
  unitPl := 32
  c := 1
  rounds := 1
  iv := [7]
  long := fun _ _ => []
  short := fun _ _ => []

/-- The bound is attained: one unit, one round, and exactly one digest of the initial vector that loses it. -/
example : Set.ncard {f : ({[7]} : Finset Bytes) → Fin (256 ^ 32) | ∃ k < 1, ∃ r, 0 ≤ r ∧ r < 1 ∧ ∃ i < 1,
      (oneUnit.withHash 1 0 0 (oracle toyHash {[7]} f)).maskAt (fun _ => [leBytes 32 5]) k r i ∈
          ({[7]} : Finset Bytes) ∧
      (oneUnit.withHash 1 0 0 (oracle toyHash {[7]} f)).maskAt (fun _ => [leBytes 32 5]) k r i ∉
        (oneUnit.withHash 1 0 0 (oracle toyHash {[7]} f)).stringsBefore 1 0 0
            (fun _ => [leBytes 32 5]) k r i ∧
      (oneUnit.withHash 1 0 0 (oracle toyHash {[7]} f)).inputAt (fun _ => [leBytes 32 5]) k r i = 0}
      = 1 := by
  apply Nat.le_antisymm
  · have := C126_lost oneUnit (Nat.le_refl _) 1 0 0 toyHash {[7]} (fun _ => [leBytes 32 5]) 0
    rw [Finset.card_singleton, pow_one] at this
    have e : oneUnit.rounds = 1 := rfl
    have e' : oneUnit.c = 1 := rfl
    rw [e, e'] at this
    exact Nat.le_of_mul_le_mul_right this (by norm_num)
  · rw [Nat.one_le_iff_ne_zero, ← Nat.pos_iff_ne_zero, Set.ncard_pos]
    have hm : ∀ G : Bytes → Bytes, (oneUnit.withHash 1 0 0 G).maskAt (fun _ => [leBytes 32 5]) 0 0 0 = [7] := by
      intro G
      have : hashShort G 1 0 [] 0 = [] := by simp [hashShort]
      show ([] : List Bytes).flatten ++ ((hashShort G 1 0 [] 0).map _).flatten ++ [7] = [7]
      rw [this]
      rfl
    have hin : ∀ G : Bytes → Bytes, (oneUnit.withHash 1 0 0 G).inputAt (fun _ => [leBytes 32 5]) 0 0 0 =
        (leNat (leBytes 32 5) + leNat (G [7])) % 256 ^ 32 := by
      intro G
      rw [← hm G]
      rfl
    refine ⟨fun _ => ⟨256 ^ 32 - 5, by norm_num⟩, 0, by norm_num, 0, le_rfl, by norm_num, 0, by norm_num, ?_, ?_, ?_⟩
    · rw [hm]
      exact Finset.mem_singleton_self _
    · rw [hm]
      show [7] ∉ ([[]] : List Bytes)
      decide
    · rw [hin]
      unfold oracle
      rw [dif_pos (Finset.mem_singleton_self _)]
      decide +kernel

/-- Over all tables for the strings in `Q`, a file is not retrieved in at most `n * (rounds - 1) * c` of `256 ^ 32` cases,
leaving aside the tables under which a mask of the first round is the zero digest, and those under which a unit is lost
in a later round by a mask hashed from a string outside `Q` or hashed before. -/
theorem C126_retrieval (H₀ : Bytes → Bytes) (h0 : ∀ x, (H₀ x).length = 32) (params : PosPara)
    (p n c : Nat) (cfg : Config params p n c) (hp : 256 ^ params.unitL + 256 ^ 32 ≤ p) (hmodeL : params.modeL = 0)
    (hmodeS : params.modeS = 0) (hn : LongCountOk n params.cntL) (hc : ShortCountOk c params.cntS)
    (origin iv padded : Bytes) (hlen : origin.length = params.dataL)
    (hpad : copyAndPad origin params.dataL params.unitL = .ok padded)
    (S : (Bytes → Bytes) → Sealing) (hd : ∀ H, describes (S H) H params p n c iv)
    (plain : Nat → List Bytes)
    (hplain : plain = fun k => (List.range c).map (fun j => readFile padded ((k * c + j) * params.unitPl) params.unitPl))
    (Q : Finset Bytes) :
    Set.ncard {f : Q → Fin (256 ^ 32) |
      storeAndRetrieve (oracle H₀ Q f) params origin (p : Int) iv ≠ .ok origin ∧
      (∀ k < n, ∀ i < c, oracle H₀ Q f ((S (oracle H₀ Q f)).maskAt plain k 0 i) ≠ zeros 32) ∧
      (∀ k < n, ∀ r, 1 ≤ r → r < params.sealRounds → ∀ i < c, (S (oracle H₀ Q f)).inputAt plain k r i = 0 →
        (S (oracle H₀ Q f)).maskAt plain k r i ∈ Q ∧
        (S (oracle H₀ Q f)).maskAt plain k r i ∉
          (S (oracle H₀ Q f)).stringsBefore n params.cntL params.cntS plain k r i)} * 256 ^ 32 ≤
    n * ((params.sealRounds - 1) * c) * (256 ^ 32) ^ Q.card := by
  obtain ⟨oL, oS⟩ := hashModes_ok (n := n) (c := c) hmodeL hmodeS hn hc
  have hS : ∀ G : Bytes → Bytes, S G = (S H₀).withHash n params.cntL params.cntS G := by
    intro G
    have h1 : describes ((S H₀).withHash n params.cntL params.cntS G) G params p n c iv := by
      obtain ⟨-, h2, h3, h4, h5, h6, h7, -, -⟩ := hd H₀
      refine ⟨rfl, h2, h3, h4, h5, h6, h7, ?_, ?_⟩
      · unfold longOf
        rw [if_pos hmodeL]
        rfl
      · unfold shortOf
        rw [if_pos hmodeS, ← h5]
        rfl
    rw [describes_sealingOf (hd G), describes_sealingOf h1]
  obtain ⟨-, -, d3, -, d5, d6, -, -, -⟩ := hd H₀
  have key := C126_lost (S H₀) (by rw [d3]; exact le_trans (Nat.le_add_left _ _) hp) n params.cntL params.cntS H₀ Q plain 1
  rw [d5, d6] at key
  refine le_trans (Nat.mul_le_mul_right _ (Set.ncard_le_ncard ?_ (Set.toFinite _))) key
  rintro f ⟨hf, hfirst, hlater⟩
  by_contra hno
  apply hf
  have hH := oracle_length h0 f
  refine C85_retrieval _ hH params p n c cfg hmodeL hn oS origin iv padded hlen hpad _ (hd _) ?_
  rw [← hplain]
  intro k hk
  rw [Sealing.noZeroEncoded_iff]
  intro r hr j hj hz
  have e5 : (S (oracle H₀ Q f)).c = c := (hd _).2.2.2.2.1
  have e6 : (S (oracle H₀ Q f)).rounds = params.sealRounds := (hd _).2.2.2.2.2.1
  rw [e5] at hj
  rw [e6] at hr
  have hz : (S (oracle H₀ Q f)).inputAt plain k r j = 0 := hz
  by_cases hr0 : r = 0
  · subst hr0
    apply hfirst k hk j hj
    have hz' := hz
    unfold Sealing.inputAt at hz'
    simp only [] at hz'
    rw [hplain] at hz'
    rw [C86_first_round _ hH params p n c cfg hp origin iv padded hlen hpad _ (hd _) _ _ k j hk hj] at hz'
    have hz' := (Nat.add_eq_zero_iff.mp hz').2
    unfold Sealing.maskAt
    simp only []
    rw [hplain, eq_leBytes (hH _) hz']
    decide +kernel
  · apply hno
    obtain ⟨m1, m2⟩ := hlater k hk r (by omega) hr j hj hz
    rw [hS] at m1 m2 hz
    exact ⟨k, hk, r, by omega, hr, j, hj, m1, m2, hz⟩

/-- The shipped parameter sets with the shipped 512-bit modulus: at most `2 ^ 20` of `2 ^ 256` tables. -/
theorem C126_shipped (H₀ : Bytes → Bytes) (h0 : ∀ x, (H₀ x).length = 32) (l : Nat) (origin iv padded : Bytes)
    (hlen : origin.length = (genPosdata l).dataL)
    (hpad : copyAndPad origin (genPosdata l).dataL (genPosdata l).unitL = .ok padded) :
    ∃ c, (genPosdata l).blockL = c * (genPosdata l).unitL ∧ c ≤ 4096 ∧
    ∀ (S : (Bytes → Bytes) → Sealing), (∀ H, describes (S H) H (genPosdata l) P_512.toNat 256 c iv) →
    ∀ plain : Nat → List Bytes, (plain = fun k => (List.range c).map
      (fun j => readFile padded ((k * c + j) * (genPosdata l).unitPl) (genPosdata l).unitPl)) →
    ∀ Q : Finset Bytes,
    Set.ncard {f : Q → Fin (256 ^ 32) |
      storeAndRetrieve (oracle H₀ Q f) (genPosdata l) origin P_512 iv ≠ .ok origin ∧
      (∀ k < 256, ∀ i < c, oracle H₀ Q f ((S (oracle H₀ Q f)).maskAt plain k 0 i) ≠ zeros 32) ∧
      (∀ k < 256, ∀ i < c, (S (oracle H₀ Q f)).inputAt plain k 1 i = 0 →
        (S (oracle H₀ Q f)).maskAt plain k 1 i ∈ Q ∧
        (S (oracle H₀ Q f)).maskAt plain k 1 i ∉ (S (oracle H₀ Q f)).stringsBefore 256 0 10 plain k 1 i)} * 2 ^ 256 ≤
    2 ^ 20 * (2 ^ 256) ^ Q.card := by
  obtain ⟨c, hc, cfg, hL, hS⟩ := genPosdata_config l _ prime_P_512 (by norm_num) (by norm_num) (by norm_num)
  refine ⟨c, cfg.block, hc, fun S hd plain hplain Q => ?_⟩
  have f1 : (genPosdata l).sealRounds = 2 := by unfold genPosdata; split_ifs <;> decide
  have f2 : (genPosdata l).cntL = 0 := by unfold genPosdata; split_ifs <;> decide
  have f3 : (genPosdata l).cntS = 10 := by unfold genPosdata; split_ifs <;> decide
  have := C126_retrieval H₀ h0 (genPosdata l) P_512.toNat 256 c cfg (C86_shipped l) hL hS (by omega) (by omega) origin iv padded
    hlen hpad S hd plain hplain Q
  rw [f1, f2, f3] at this
  have hN : (256 : Nat) ^ 32 = 2 ^ 256 := by norm_num
  refine le_trans (le_trans ?_ this) ?_
  · rw [← hN]
    refine Nat.mul_le_mul_right _ (Set.ncard_le_ncard ?_ (Set.toFinite _))
    rintro f ⟨g1, g2, g3⟩
    refine ⟨g1, g2, fun k hk r h1 h2 => ?_⟩
    have : r = 1 := by omega
    subst this
    exact g3 k hk
  · rw [hN]
    refine Nat.mul_le_mul_right _ ?_
    omega

/-- Meets the hypotheses: two rounds over two blocks of two units, and any set of strings. -/
example (origin iv padded : Bytes) (h : origin.length = 252) (hpad : copyAndPad origin 252 63 = .ok padded) (Q : Finset Bytes) :
    ∃ p : Nat, (p : Int) = P_512 ∧
    Set.ncard {f : Q → Fin (256 ^ 32) |
      storeAndRetrieve (oracle toyHash Q f) (toyParams 2 2 0 0 1 1 2) origin (p : Int) iv ≠ .ok origin ∧
      (∀ k < 2, ∀ i < 2, oracle toyHash Q f ((sealingOf (oracle toyHash Q f) (toyParams 2 2 0 0 1 1 2) p 2 iv
        (longOf (oracle toyHash Q f) (toyParams 2 2 0 0 1 1 2) 2) (shortOf (oracle toyHash Q f) (toyParams 2 2 0 0 1 1 2) 2 2)).maskAt
          (fun k => (List.range 2).map (fun j => readFile padded ((k * 2 + j) * 64) 64)) k 0 i) ≠ zeros 32) ∧
      (∀ k < 2, ∀ r, 1 ≤ r → r < 2 → ∀ i < 2, (sealingOf (oracle toyHash Q f) (toyParams 2 2 0 0 1 1 2) p 2 iv
        (longOf (oracle toyHash Q f) (toyParams 2 2 0 0 1 1 2) 2) (shortOf (oracle toyHash Q f) (toyParams 2 2 0 0 1 1 2) 2 2)).inputAt
          (fun k => (List.range 2).map (fun j => readFile padded ((k * 2 + j) * 64) 64)) k r i = 0 →
        (sealingOf (oracle toyHash Q f) (toyParams 2 2 0 0 1 1 2) p 2 iv
        (longOf (oracle toyHash Q f) (toyParams 2 2 0 0 1 1 2) 2) (shortOf (oracle toyHash Q f) (toyParams 2 2 0 0 1 1 2) 2 2)).maskAt
          (fun k => (List.range 2).map (fun j => readFile padded ((k * 2 + j) * 64) 64)) k r i ∈ Q ∧
        (sealingOf (oracle toyHash Q f) (toyParams 2 2 0 0 1 1 2) p 2 iv
        (longOf (oracle toyHash Q f) (toyParams 2 2 0 0 1 1 2) 2) (shortOf (oracle toyHash Q f) (toyParams 2 2 0 0 1 1 2) 2 2)).maskAt
          (fun k => (List.range 2).map (fun j => readFile padded ((k * 2 + j) * 64) 64)) k r i ∉
          (sealingOf (oracle toyHash Q f) (toyParams 2 2 0 0 1 1 2) p 2 iv
        (longOf (oracle toyHash Q f) (toyParams 2 2 0 0 1 1 2) 2) (shortOf (oracle toyHash Q f) (toyParams 2 2 0 0 1 1 2) 2 2)).stringsBefore
          2 1 1 (fun k => (List.range 2).map (fun j => readFile padded ((k * 2 + j) * 64) 64)) k r i)} * 256 ^ 32 ≤
      2 * ((2 - 1) * 2) * (256 ^ 32) ^ Q.card := by
  obtain ⟨p, hp, cfg⟩ := toy_config 2 2 0 0 1 1 2 (by norm_num)
  refine ⟨p, hp, C126_retrieval toyHash toyHash_length _ p 2 2 cfg ?_ rfl rfl (Or.inl (by norm_num)) (Or.inl (by norm_num)) origin iv
    padded h hpad (fun H => sealingOf H (toyParams 2 2 0 0 1 1 2) p 2 iv (longOf H (toyParams 2 2 0 0 1 1 2) 2)
      (shortOf H (toyParams 2 2 0 0 1 1 2) 2 2)) (fun H => ⟨rfl, rfl, rfl, rfl, rfl, rfl, rfl, rfl, rfl⟩) _ rfl Q⟩
  have : p = P_512.toNat := by rw [← hp]; rfl
  rw [this]
  show 256 ^ 63 + 256 ^ 32 ≤ _
  decide +kernel

end PoS
