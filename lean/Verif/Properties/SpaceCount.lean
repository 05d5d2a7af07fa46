import Verif.Properties.SpaceRun
import Mathlib.Data.Fintype.BigOperators
import Mathlib.Data.Set.Card
import Mathlib.Data.Finset.Powerset
import Mathlib.Algebra.BigOperators.Intervals

/-
C98: for how many of the verifier's random bits an honest proof-of-space run succeeds.
-/

namespace PoS

/-- The number of tuples with at least `want` components in `S`. -/
theorem card_hits {ch N : Nat} (S : Finset (Fin N)) (want : Nat) :
    (Finset.univ.filter (fun v : Fin ch → Fin N =>
      want ≤ (Finset.univ.filter (fun i => v i ∈ S)).card)).card =
      ∑ j ∈ Finset.Icc want ch, ch.choose j * S.card ^ j * (N - S.card) ^ (ch - j) := by
  classical
  have h1 : ∀ T : Finset (Fin ch),
      (Finset.univ.filter (fun v : Fin ch → Fin N => Finset.univ.filter (fun i => v i ∈ S) = T)).card =
        S.card ^ T.card * (N - S.card) ^ (ch - T.card) := by
    intro T
    have e : (Finset.univ.filter (fun v : Fin ch → Fin N => Finset.univ.filter (fun i => v i ∈ S) = T)) =
        Fintype.piFinset (fun i => if i ∈ T then S else Sᶜ) := by
      ext v
      simp only [Finset.mem_filter, Finset.mem_univ, true_and, Fintype.mem_piFinset]
      constructor
      · rintro rfl i
        by_cases h : v i ∈ S <;> simp [h]
      · intro h
        ext i
        have := h i
        by_cases hi : i ∈ T <;> simp_all
    rw [e, Fintype.card_piFinset]
    have : ∀ i : Fin ch, (if i ∈ T then S else Sᶜ).card = if i ∈ T then S.card else N - S.card := by
      intro i
      split
      · rfl
      · rw [Finset.card_compl, Fintype.card_fin]
    simp only [this]
    rw [Finset.prod_ite, Finset.prod_const, Finset.prod_const]
    congr 2
    · congr 1; ext i; simp
    · have : (Finset.univ.filter (fun i => i ∉ T)) = Tᶜ := by ext i; simp
      rw [this, Finset.card_compl, Fintype.card_fin]
  have h2 : (Finset.univ.filter (fun v : Fin ch → Fin N =>
      want ≤ (Finset.univ.filter (fun i => v i ∈ S)).card)).card =
      ∑ T ∈ (Finset.univ : Finset (Fin ch)).powerset, if want ≤ T.card then
        S.card ^ T.card * (N - S.card) ^ (ch - T.card) else 0 := by
    rw [Finset.card_eq_sum_card_fiberwise (f := fun v : Fin ch → Fin N => Finset.univ.filter (fun i => v i ∈ S))
      (t := (Finset.univ : Finset (Fin ch)).powerset) (by intro v _; simp)]
    apply Finset.sum_congr rfl
    intro T _
    rw [Finset.filter_filter]
    split
    · next h =>
      rw [← h1 T]
      congr 1
      ext v
      simp only [Finset.mem_filter, Finset.mem_univ, true_and]
      constructor
      · exact fun h => h.2
      · rintro rfl
        exact ⟨h, rfl⟩
    · next h =>
      rw [Finset.card_eq_zero, Finset.filter_eq_empty_iff]
      rintro v - ⟨h3, rfl⟩
      exact h h3
  rw [h2, Finset.sum_powerset_apply_card (fun k => if want ≤ k then
    S.card ^ k * (N - S.card) ^ (ch - k) else 0), Finset.card_univ, Fintype.card_fin]
  have h3 : ∀ k, ch.choose k • (if want ≤ k then S.card ^ k * (N - S.card) ^ (ch - k) else 0) =
      if want ≤ k then ch.choose k * S.card ^ k * (N - S.card) ^ (ch - k) else 0 := by
    intro k
    split <;> simp [Nat.mul_assoc]
  simp only [h3]
  rw [← Finset.sum_filter]
  congr 1
  ext k
  simp only [Finset.mem_filter, Finset.mem_range, Finset.mem_Icc]
  omega

/-- The stream of draws that starts with the given bits. -/
def drawOf {k : Nat} (b : Fin k → Fin 2) (j : Nat) : Nat := if h : j < k then (b ⟨j, h⟩).val else 0

theorem drawOf_lt {k : Nat} (b : Fin k → Fin 2) (j : Nat) : drawOf b j < 2 := by
  unfold drawOf
  split
  · exact (b _).isLt
  · omega

/-- The random bits and the challenges determine each other. -/
theorem challenges_bij (ch n : Nat) (h0 : 0 < n) (h64 : n < 64) :
    ∃ f : (Fin (ch * n) → Fin 2) → (Fin ch → Fin (2 ^ n)), Function.Bijective f ∧
      ∀ b, spaceChallenges (drawOf b) ch n = .ok (List.ofFn (fun i => (f b i).val)) := by
  have hex : ∀ b : Fin (ch * n) → Fin 2, ∃ v : Fin ch → Fin (2 ^ n),
      spaceChallenges (drawOf b) ch n = .ok (List.ofFn (fun i => (v i).val)) := by
    intro b
    obtain ⟨cs, h1, h2, h3⟩ := C41_in_range (drawOf b) ch n h64
    refine ⟨fun i => ⟨cs[i.val]'(by omega), h3 _ (List.getElem_mem _)⟩, ?_⟩
    rw [h1]
    congr 1
    apply List.ext_getElem (by simp [h2])
    intro i _ _
    simp
  choose f hf using hex
  refine ⟨f, ?_, hf⟩
  rw [Fintype.bijective_iff_surjective_and_card]
  refine ⟨fun v => ?_, by simp [← pow_mul, Nat.mul_comm]⟩
  obtain ⟨draw, hd, hc⟩ := C41_every_list_possible n h0 h64 (List.ofFn (fun i => (v i).val)) (by
    intro c hc
    obtain ⟨i, rfl⟩ := List.mem_ofFn.mp hc
    exact (v i).isLt)
  rw [List.length_ofFn] at hc
  let b : Fin (ch * n) → Fin 2 := fun j => ⟨draw j, hd j⟩
  refine ⟨b, ?_⟩
  have hsame : spaceChallenges (drawOf b) ch n = spaceChallenges draw ch n := by
    rw [spaceChallenges_eq _ _ _ h64, spaceChallenges_eq _ _ _ h64]
    congr 1
    apply List.map_congr_left
    intro i hi
    congr 1
    apply List.map_congr_left
    intro k hk
    have hi := List.mem_range.mp hi
    have hk := List.mem_range.mp hk
    have : i * n + k < ch * n := by
      calc i * n + k < i * n + n := by omega
        _ = (i + 1) * n := by ring
        _ ≤ ch * n := Nat.mul_le_mul_right _ hi
    simp [drawOf, b, this]
  have := hf b
  rw [hsame, hc] at this
  have e := List.ofFn_injective (Except.ok.inj this)
  funext i
  exact Fin.ext (congrFun e i).symm

theorem countP_ofFn {ch : Nat} (g : Fin ch → Nat) (p : Nat → Bool) :
    (List.ofFn g).countP p = (Finset.univ.filter (fun i => p (g i) = true)).card := by
  induction ch with
  | zero => simp
  | succ ch ih =>
    rw [List.ofFn_succ, List.countP_cons, ih, Finset.card_filter, Finset.card_filter, Fin.sum_univ_succ,
      Nat.add_comm]

/-- The exact number of random bit strings for which the run of an honest prover succeeds.  `f` is
the number of cells of the table that hold an input. -/
theorem C98_count {q : Nat} [NeZero q] {n ySize : Nat} (h3 : 3 ≤ n) (h64 : n < 64) (hny : n ≤ ySize) (h256 : ySize ≤ 256)
    (hq : q ≤ 2 ^ ySize) {dcs hcs : List (ZMod q)} (hd : dcs.length = 10) (hh : hcs.length = 10) (key m : ZMod q)
    (chCount want : Nat) (hw : 0 < want)
    (prove : CS (ZMod q) → CS (ZMod q) → List (ZMod q) → Option Bool)
    (hprove : ∀ pk s, pk.nInst = s.nInst → pk.nWit = s.nWit → pk.cons = s.cons → Satisfies s.cons (s.inst, s.wit) →
      prove pk s s.inst ≠ none)
    (f : Nat)
    (hf : f = Set.ncard {y : Nat | ∃ x : Nat, x < 2 ^ n ∧ ∃ Y, mimc5Df ((x : ZMod q) + key) m dcs = .ok Y ∧
      Y.val % 2 ^ n = y}) :
    Set.ncard {b : Fin (chCount * n) → Fin 2 |
        pospaceRun n ySize chCount want dcs hcs key m (drawOf b) prove = .ok want} =
      ∑ j ∈ Finset.Icc want chCount, chCount.choose j * f ^ j * (2 ^ n - f) ^ (chCount - j) ∧
    ∀ b : Fin (chCount * n) → Fin 2,
      pospaceRun n ySize chCount want dcs hcs key m (drawOf b) prove = .ok want ∨
      pospaceRun n ySize chCount want dcs hcs key m (drawOf b) prove = .error .assertion := by
  classical
  let occP : Nat → Prop := fun y => ∃ x : Nat, x < 2 ^ n ∧ ∃ Y, mimc5Df ((x : ZMod q) + key) m dcs = .ok Y ∧
      Y.val % 2 ^ n = y
  let occ : Nat → Bool := fun y => decide (occP y)
  have hlt : ∀ y, occP y → y < 2 ^ n := by
    rintro y ⟨x, -, Y, -, rfl⟩
    exact Nat.mod_lt _ (by positivity)
  obtain ⟨g, hg, hch⟩ := challenges_bij chCount n (by omega) h64
  have hrun : ∀ b, pospaceRun n ySize chCount want dcs hcs key m (drawOf b) prove =
      if want ≤ (Finset.univ.filter (fun i => occ (g b i).val = true)).card then .ok want else .error .assertion := by
    intro b
    obtain ⟨cs, e1, e2⟩ := C77_run h3 h64 hny h256 hq hd hh key m chCount want hw (drawOf b) prove hprove
      occ (fun y _ => by simp only [occ, decide_eq_true_eq]; rfl)
    rw [hch b] at e1
    cases e1
    rw [e2, countP_ofFn]
  let S : Finset (Fin (2 ^ n)) := Finset.univ.filter (fun y => occ y.val = true)
  have hS : S.card = f := by
    rw [hf, ← Set.ncard_coe_finset, ← Set.ncard_image_of_injective _ Fin.val_injective]
    congr 1
    ext y
    simp only [Set.mem_image, Finset.mem_coe, S, Finset.mem_filter, Finset.mem_univ, true_and, occ,
      decide_eq_true_eq, Set.mem_ofPred_eq]
    constructor
    · rintro ⟨z, hz, rfl⟩
      exact hz
    · intro h
      exact ⟨⟨y, hlt y h⟩, h, rfl⟩
  constructor
  · rw [← hS, ← card_hits S want, ← Set.ncard_coe_finset, ← Set.ncard_image_of_injective _ hg.injective]
    congr 1
    ext v
    simp only [Set.mem_image, Set.mem_ofPred_eq, Finset.coe_filter, Finset.mem_univ, true_and]
    constructor
    · rintro ⟨b, hb, rfl⟩
      rw [hrun b] at hb
      split at hb
      · next h => simpa [S] using h
      · cases hb
    · intro h
      obtain ⟨b, rfl⟩ := hg.surjective v
      refine ⟨b, ?_, rfl⟩
      rw [hrun b, if_pos (by simpa [S] using h)]
  · intro b
    rw [hrun b]
    split
    · left; rfl
    · right; rfl

/-- An honest run is certain to succeed exactly if every cell of the table holds an input and the
verifier asks for at least as many challenges as answers. -/
theorem C98_certain {q : Nat} [NeZero q] {n ySize : Nat} (h3 : 3 ≤ n) (h64 : n < 64) (hny : n ≤ ySize) (h256 : ySize ≤ 256)
    (hq : q ≤ 2 ^ ySize) {dcs hcs : List (ZMod q)} (hd : dcs.length = 10) (hh : hcs.length = 10) (key m : ZMod q)
    (chCount want : Nat) (hw : 0 < want)
    (prove : CS (ZMod q) → CS (ZMod q) → List (ZMod q) → Option Bool)
    (hprove : ∀ pk s, pk.nInst = s.nInst → pk.nWit = s.nWit → pk.cons = s.cons → Satisfies s.cons (s.inst, s.wit) →
      prove pk s s.inst ≠ none) :
    (∀ b : Fin (chCount * n) → Fin 2,
      pospaceRun n ySize chCount want dcs hcs key m (drawOf b) prove = .ok want) ↔
    want ≤ chCount ∧ ∀ y < 2 ^ n, ∃ x : Nat, x < 2 ^ n ∧ ∃ Y, mimc5Df ((x : ZMod q) + key) m dcs = .ok Y ∧
      Y.val % 2 ^ n = y := by
  classical
  let occP : Nat → Prop := fun y => ∃ x : Nat, x < 2 ^ n ∧ ∃ Y, mimc5Df ((x : ZMod q) + key) m dcs = .ok Y ∧
      Y.val % 2 ^ n = y
  let occ : Nat → Bool := fun y => decide (occP y)
  obtain ⟨g, hg, hch⟩ := challenges_bij chCount n (by omega) h64
  have hrun : ∀ b, pospaceRun n ySize chCount want dcs hcs key m (drawOf b) prove =
      if want ≤ (Finset.univ.filter (fun i => occ (g b i).val = true)).card then .ok want else .error .assertion := by
    intro b
    obtain ⟨cs, e1, e2⟩ := C77_run h3 h64 hny h256 hq hd hh key m chCount want hw (drawOf b) prove hprove
      occ (fun y _ => by simp only [occ, decide_eq_true_eq]; rfl)
    rw [hch b] at e1
    cases e1
    rw [e2, countP_ofFn]
  constructor
  · intro h
    have hle : ∀ v : Fin chCount → Fin (2 ^ n), want ≤ (Finset.univ.filter (fun i => occ (v i).val = true)).card := by
      intro v
      obtain ⟨b, rfl⟩ := hg.surjective v
      have := h b
      rw [hrun b] at this
      split at this
      · assumption
      · cases this
    constructor
    · have := hle (fun _ => ⟨0, by positivity⟩)
      refine this.trans ((Finset.card_filter_le _ _).trans (by simp))
    · intro y hy
      by_contra hno
      have := hle (fun _ => ⟨y, hy⟩)
      rw [Finset.filter_false_of_mem (by intro i _; simp only [occ, decide_eq_true_eq]; exact hno)] at this
      simp at this
      omega
  · rintro ⟨h1, h2⟩ b
    rw [hrun b, if_pos]
    rw [Finset.filter_true_of_mem (by intro i _; simp only [occ, decide_eq_true_eq]; exact h2 _ (g b i).isLt)]
    simpa using h1

/-- The shipped run: of the 2^2000 random bit strings. -/
theorem C98_shipped (dcs hcs : List (ZMod blsR)) (hd : dcs.length = 10) (hh : hcs.length = 10) (key m : ZMod blsR)
    (prove : CS (ZMod blsR) → CS (ZMod blsR) → List (ZMod blsR) → Option Bool)
    (hprove : ∀ pk s, pk.nInst = s.nInst → pk.nWit = s.nWit → pk.cons = s.cons → Satisfies s.cons (s.inst, s.wit) →
      prove pk s s.inst ≠ none)
    (f : Nat)
    (hf : f = Set.ncard {y : Nat | ∃ x : Nat, x < 2 ^ 20 ∧ ∃ Y, mimc5Df ((x : ZMod blsR) + key) m dcs = .ok Y ∧
      Y.val % 2 ^ 20 = y}) :
    Set.ncard {b : Fin (100 * 20) → Fin 2 |
        pospaceRun SPACE_N Y_SIZE CHALLENGE_COUNT RESPONSE_COUNT dcs hcs key m (drawOf b) prove = .ok 50} =
      ∑ j ∈ Finset.Icc 50 100, Nat.choose 100 j * f ^ j * (2 ^ 20 - f) ^ (100 - j) :=
  (C98_count (n := 20) (ySize := Y_SIZE) (by norm_num) (by norm_num) (by norm_num [Y_SIZE]) (by norm_num [Y_SIZE])
    (by norm_num [blsR, Y_SIZE]) hd hh key m 100 50 (by norm_num) prove hprove f hf).1

/- Six of eight cells occupied; four challenges, two answers: 3888 of the 4096 bit strings. -/
example : Set.ncard {b : Fin (4 * 3) → Fin 2 | pospaceRun (q := 103) 3 7 4 2 [1, 2, 3, 4, 5, 6, 7, 8, 9, 10]
    [1, 2, 3, 4, 5, 6, 7, 8, 9, 10] 5 6 (drawOf b) (fun _ _ _ => some true) = .ok 2} = 3888 := by
  rw [(C98_count (q := 103) (n := 3) (ySize := 7) (by norm_num) (by norm_num) (by norm_num) (by norm_num) (by norm_num)
    rfl rfl 5 6 4 2 (by norm_num) _ (by intros; simp) 6 ?_).1]
  · decide
  · have e : {y : Nat | ∃ x : Nat, x < 2 ^ 3 ∧ ∃ Y, mimc5Df ((x : ZMod 103) + 5) 6 [1, 2, 3, 4, 5, 6, 7, 8, 9, 10] =
        .ok Y ∧ Y.val % 2 ^ 3 = y} = ↑({0, 1, 2, 3, 6, 7} : Finset Nat) := by
      ext y
      have key : ∀ x : Nat, x < 8 → ∃ Y, mimc5Df ((x : ZMod 103) + 5) 6 [1, 2, 3, 4, 5, 6, 7, 8, 9, 10] = .ok Y ∧
          Y.val % 2 ^ 3 = [2, 1, 0, 3, 2, 6, 6, 7][x]?.getD 0 := by decide +kernel
      simp only [Set.mem_ofPred_eq, Finset.coe_insert, Finset.coe_singleton, Set.mem_insert_iff, Set.mem_singleton_iff]
      constructor
      · rintro ⟨x, hx, Y, hY, rfl⟩
        obtain ⟨Y', h1, h2⟩ := key x hx
        rw [hY] at h1
        cases h1
        rw [h2]
        have hx : x < 8 := hx
        interval_cases x <;> simp
      · intro hy
        have : ∃ x < 8, [2, 1, 0, 3, 2, 6, 6, 7][x]?.getD 0 = y := by
          rcases hy with rfl | rfl | rfl | rfl | rfl | rfl <;> decide
        obtain ⟨x, hx, rfl⟩ := this
        obtain ⟨Y', h1, h2⟩ := key x hx
        exact ⟨x, hx, Y', h1, h2⟩
    rw [e, Set.ncard_coe_finset]
    rfl

end PoS
