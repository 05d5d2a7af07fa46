import Verif.Properties.SpaceTable

/-
C104: for how many of the verifier's random bits a given table passes the round.
-/

namespace PoS

/-- The first `want` flagged elements exist and are right. -/
theorem firstRight_cons (flag right : Nat → Bool) (want c : Nat) (l : List Nat) :
    (want + 1 ≤ (c :: l).countP flag ∧
        (((c :: l).filter flag).take (want + 1)).all right = true) ↔
      (flag c = true ∧ right c = true ∧ want ≤ l.countP flag ∧
        ((l.filter flag).take want).all right = true) ∨
      (¬ flag c = true ∧ want + 1 ≤ l.countP flag ∧
        ((l.filter flag).take (want + 1)).all right = true) := by
  by_cases hc : flag c = true
  · simp only [List.countP_cons, hc, if_true, List.filter_cons, List.take_succ_cons, List.all_cons,
      Bool.and_eq_true, not_true, false_and, or_false, true_and, Nat.add_le_add_iff_right]
    tauto
  · simp [hc, List.countP_cons, List.filter_cons]

/-- The number of tuples of `ch` cells of which the first `want` flagged ones exist and are right. -/
theorem card_firstRight {N : Nat} (flag right : Nat → Bool) (r u : Nat)
    (hr : r = (Finset.univ.filter (fun c : Fin N => flag c = true ∧ right c = true)).card)
    (hu : u = (Finset.univ.filter (fun c : Fin N => ¬ flag c = true)).card) (ch want : Nat) :
    (Finset.univ.filter (fun v : Fin ch → Fin N =>
      want + 1 ≤ (List.ofFn (fun i => (v i).val)).countP flag ∧
        (((List.ofFn (fun i => (v i).val)).filter flag).take (want + 1)).all right = true)).card =
      ∑ k ∈ Finset.range ch, k.choose want * r ^ (want + 1) * u ^ (k - want) * N ^ (ch - 1 - k) := by
  have hsplit : ∀ (ch : Nat) (P : (Fin (ch + 1) → Fin N) → Prop) [DecidablePred P],
      (Finset.univ.filter P).card = ∑ c : Fin N, (Finset.univ.filter (fun v : Fin ch → Fin N => P (Fin.cons c v))).card := by
    intro ch P _
    simp only [Finset.card_filter]
    rw [← (Fin.consEquiv (fun _ : Fin (ch + 1) => Fin N)).sum_comp, Fintype.sum_prod_type]
    rfl
  have hstep : ∀ (ch want A B : Nat),
      (Finset.univ.filter (fun v : Fin ch → Fin N =>
        want ≤ (List.ofFn (fun i => (v i).val)).countP flag ∧
          (((List.ofFn (fun i => (v i).val)).filter flag).take want).all right = true)).card = A →
      (Finset.univ.filter (fun v : Fin ch → Fin N =>
        want + 1 ≤ (List.ofFn (fun i => (v i).val)).countP flag ∧
          (((List.ofFn (fun i => (v i).val)).filter flag).take (want + 1)).all right = true)).card = B →
      (Finset.univ.filter (fun v : Fin (ch + 1) → Fin N =>
        want + 1 ≤ (List.ofFn (fun i => (v i).val)).countP flag ∧
          (((List.ofFn (fun i => (v i).val)).filter flag).take (want + 1)).all right = true)).card =
        r * A + u * B := by
    intro ch want A B hA hB
    rw [hsplit]
    have : ∀ c : Fin N, (Finset.univ.filter (fun v : Fin ch → Fin N =>
        want + 1 ≤ (List.ofFn (fun i => ((Fin.cons c v : Fin (ch + 1) → Fin N) i).val)).countP flag ∧
          (((List.ofFn (fun i => ((Fin.cons c v : Fin (ch + 1) → Fin N) i).val)).filter
            flag).take (want + 1)).all right = true)).card =
        (if flag c = true ∧ right c = true then A else 0) + (if ¬ flag c = true then B else 0) := by
      intro c
      simp only [List.ofFn_succ, Fin.cons_zero, Fin.cons_succ, firstRight_cons]
      by_cases hf : flag c = true
      · by_cases hrr : right c = true
        · simp only [hf, hrr, true_and, not_true, false_and, or_false, and_self, if_true, if_false, Nat.add_zero]
          exact hA
        · simp [hf, hrr]
      · simp only [hf, Bool.false_eq_true, false_and, false_or, not_false_iff, true_and, if_false, if_true, Nat.zero_add]
        exact hB
    simp only [this]
    rw [Finset.sum_add_distrib, ← Finset.sum_filter, ← Finset.sum_filter, Finset.sum_const, Finset.sum_const, ← hr, ← hu]
    rfl
  induction ch generalizing want with
  | zero => simp
  | succ ch ih =>
    rw [Finset.sum_range_succ']
    cases want with
    | zero =>
      rw [hstep ch 0 (N ^ ch) _ (by simp) (ih 0), Finset.mul_sum]
      simp only [Nat.choose_zero_right, one_mul, Nat.sub_zero, pow_zero, Nat.zero_add, pow_one, mul_one]
      rw [Nat.add_comm]
      congr 1
      refine Finset.sum_congr rfl fun k _ => ?_
      rw [show ch + 1 - 1 - (k + 1) = ch - 1 - k by omega, pow_succ]
      ring
    | succ w =>
      rw [hstep ch (w + 1) _ _ (ih w) (ih (w + 1)), Finset.mul_sum, Finset.mul_sum, ← Finset.sum_add_distrib]
      simp only [Nat.choose_zero_succ, zero_mul, Nat.add_zero]
      refine Finset.sum_congr rfl fun k _ => ?_
      rw [show ch + 1 - 1 - (k + 1) = ch - 1 - k by omega, Nat.choose_succ_succ, show k + 1 - (w + 1) = k - w by omega]
      rcases Nat.lt_or_ge k (w + 1) with hk | hk
      · rw [Nat.choose_eq_zero_of_lt hk]
        ring
      · rw [show k - w = (k - (w + 1)) + 1 by omega, pow_succ u, pow_succ r (w + 1)]
        ring

variable {q : Nat}

/-- The exact number of random bit strings for which a table passes the round in a debug build.  `r`
cells are flagged and right, `u` cells are not flagged.  In the sum `k` is the number of challenges
before the one that gets the last answer. -/
theorem C104_count [NeZero q] {n ySize : Nat} (h1 : 1 ≤ n) (h64 : n < 64) (hny : n ≤ ySize) (h256 : ySize ≤ 256)
    (hq : q ≤ 2 ^ ySize) (hnq : 2 ^ n ≤ q) {dcs hcs : List (ZMod q)} (hd : dcs.length = 10) (hh : hcs.length = 10)
    (key m : ZMod q) (chCount want : Nat) (hw : 0 < want)
    (prove : CS (ZMod q) → CS (ZMod q) → List (ZMod q) → Option Bool)
    (hprove : ∀ pk s, pk.nInst = s.nInst → pk.nWit = s.nWit → pk.cons = s.cons → Satisfies s.cons (s.inst, s.wit) →
      prove pk s s.inst ≠ none)
    (file : Bytes) (hlen : (n + 1) * 2 ^ n ≤ 8 * file.length) (T : Nat) (hT : T = leNat file) (r u : Nat)
    (hr : r = Set.ncard {c : Nat | c < 2 ^ n ∧ T.testBit ((n + 1) * c + n) = true ∧
      ∃ Y, mimc5Df (((T / 2 ^ ((n + 1) * c) % 2 ^ n : Nat) : ZMod q) + key) m dcs = .ok Y ∧ Y.val % 2 ^ n = c})
    (hu : u = Set.ncard {c : Nat | c < 2 ^ n ∧ T.testBit ((n + 1) * c + n) = false}) :
    Set.ncard {b : Fin (chCount * n) → Fin 2 |
        spaceRound n ySize chCount want dcs hcs key m file (drawOf b) prove = .ok want} =
      ∑ k ∈ Finset.range chCount,
        k.choose (want - 1) * r ^ want * u ^ (k - (want - 1)) * (2 ^ n) ^ (chCount - 1 - k) := by
  classical
  let flag : Nat → Prop := fun c => T.testBit ((n + 1) * c + n) = true
  let right : Nat → Prop := fun c => ∃ Y, mimc5Df (((T / 2 ^ ((n + 1) * c) % 2 ^ n : Nat) : ZMod q) + key) m dcs = .ok Y ∧
    Y.val % 2 ^ n = c
  obtain ⟨g, hg, hch⟩ := challenges_bij chCount n (by omega) h64
  obtain ⟨w, rfl⟩ : ∃ w, want = w + 1 := ⟨want - 1, by omega⟩
  have hcard : ∀ (P : Nat → Prop) [DecidablePred P], (Finset.univ.filter (fun c : Fin (2 ^ n) => P c)).card = Set.ncard {c : Nat | c < 2 ^ n ∧ P c} := by
    intro P _
    rw [← Set.ncard_coe_finset, ← Set.ncard_image_of_injective _ Fin.val_injective]
    congr 1
    ext y
    simp only [Set.mem_image, Finset.mem_coe, Finset.mem_filter, Finset.mem_univ, true_and, Set.mem_ofPred_eq]
    constructor
    · rintro ⟨z, hz, rfl⟩
      exact ⟨z.isLt, hz⟩
    · rintro ⟨h, h'⟩
      exact ⟨⟨y, h⟩, h', rfl⟩
  rw [Nat.add_sub_cancel]
  rw [← card_firstRight (N := 2 ^ n) (fun c => decide (flag c)) (fun c => decide (right c)) r u
    (by rw [hcard (fun c => decide (flag c) = true ∧ decide (right c) = true), hr]; simp [flag, right])
    (by rw [hcard (fun c => ¬ decide (flag c) = true), hu]; simp [flag]) chCount w,
    ← Set.ncard_coe_finset, ← Set.ncard_image_of_injective _ hg.injective]
  congr 1
  ext v
  obtain ⟨b, rfl⟩ := hg.surjective v
  obtain ⟨cs, e1, -, e2⟩ := C103_round h1 h64 hny h256 hq hnq hd hh key m chCount (w + 1) hw (drawOf b) prove
    hprove file hlen T hT flag right (fun _ => Iff.rfl) (fun _ => Iff.rfl)
  rw [hch b] at e1
  obtain rfl := Except.ok.inj e1
  simp only [Set.mem_image, Set.mem_ofPred_eq, Finset.coe_filter, Finset.mem_univ, true_and, decide_eq_true_eq, List.all_eq_true]
  constructor
  · rintro ⟨b', hb', e⟩
    obtain rfl := hg.injective e
    rw [e2] at hb'
    split at hb'
    · assumption
    · cases hb'
  · intro h
    exact ⟨b, by rw [e2, if_pos h], rfl⟩

/-- The same number, bounded by the number of bit strings for which at least `want` challenges hit a cell
with a right answer; wrong flagged cells only lower it. -/
theorem C104_bound [NeZero q] {n ySize : Nat} (h1 : 1 ≤ n) (h64 : n < 64) (hny : n ≤ ySize) (h256 : ySize ≤ 256)
    (hq : q ≤ 2 ^ ySize) (hnq : 2 ^ n ≤ q) {dcs hcs : List (ZMod q)} (hd : dcs.length = 10) (hh : hcs.length = 10)
    (key m : ZMod q) (chCount want : Nat) (hw : 0 < want)
    (prove : CS (ZMod q) → CS (ZMod q) → List (ZMod q) → Option Bool)
    (hprove : ∀ pk s, pk.nInst = s.nInst → pk.nWit = s.nWit → pk.cons = s.cons → Satisfies s.cons (s.inst, s.wit) →
      prove pk s s.inst ≠ none)
    (file : Bytes) (hlen : (n + 1) * 2 ^ n ≤ 8 * file.length) (T : Nat) (hT : T = leNat file) (r : Nat)
    (hr : r = Set.ncard {c : Nat | c < 2 ^ n ∧ T.testBit ((n + 1) * c + n) = true ∧
      ∃ Y, mimc5Df (((T / 2 ^ ((n + 1) * c) % 2 ^ n : Nat) : ZMod q) + key) m dcs = .ok Y ∧ Y.val % 2 ^ n = c}) :
    Set.ncard {b : Fin (chCount * n) → Fin 2 |
        spaceRound n ySize chCount want dcs hcs key m file (drawOf b) prove = .ok want} ≤
      ∑ j ∈ Finset.Icc want chCount, chCount.choose j * r ^ j * (2 ^ n - r) ^ (chCount - j) := by
  classical
  let flag : Nat → Prop := fun c => T.testBit ((n + 1) * c + n) = true
  let right : Nat → Prop := fun c => ∃ Y, mimc5Df (((T / 2 ^ ((n + 1) * c) % 2 ^ n : Nat) : ZMod q) + key) m dcs = .ok Y ∧
    Y.val % 2 ^ n = c
  obtain ⟨g, hg, hch⟩ := challenges_bij chCount n (by omega) h64
  let S : Finset (Fin (2 ^ n)) := Finset.univ.filter (fun c => flag c.val ∧ right c.val)
  have hS : S.card = r := by
    rw [hr, ← Set.ncard_coe_finset, ← Set.ncard_image_of_injective _ Fin.val_injective]
    congr 1
    ext y
    simp only [Set.mem_image, Finset.mem_coe, S, Finset.mem_filter, Finset.mem_univ, true_and, Set.mem_ofPred_eq]
    constructor
    · rintro ⟨z, hz, rfl⟩
      exact ⟨z.isLt, hz⟩
    · rintro ⟨h, h'⟩
      exact ⟨⟨y, h⟩, h', rfl⟩
  rw [← hS, ← card_hits S want, ← Set.ncard_coe_finset, ← Set.ncard_image_of_injective _ hg.injective]
  refine Set.ncard_le_ncard ?_ (Finset.finite_toSet _)
  rintro v ⟨b, hb, rfl⟩
  obtain ⟨cs, e1, -, e2⟩ := C103_round h1 h64 hny h256 hq hnq hd hh key m chCount want hw (drawOf b) prove
    hprove file hlen T hT flag right (fun _ => Iff.rfl) (fun _ => Iff.rfl)
  rw [hch b] at e1
  obtain rfl := Except.ok.inj e1
  rw [Set.mem_ofPred_eq, e2] at hb
  split at hb
  · next h =>
    simp only [Finset.coe_filter, Finset.mem_univ, true_and, Set.mem_ofPred_eq]
    have hc := countP_ofFn (fun i => (g b i).val) (fun c => decide (flag c ∧ right c))
    simp only [decide_eq_true_eq] at hc
    simp only [S, Finset.mem_filter, Finset.mem_univ, true_and]
    rw [← hc]
    obtain ⟨ha, hb⟩ := h
    rw [List.countP_eq_length_filter] at ha
    have hsub : (((List.ofFn (fun i => (g b i).val)).filter (fun c => decide (flag c))).take want).countP
        (fun c => decide (flag c ∧ right c)) = want := by
      rw [List.countP_eq_length.mpr, List.length_take, Nat.min_eq_left ha]
      intro c hcm
      rw [decide_eq_true_eq]
      exact ⟨of_decide_eq_true (List.mem_filter.mp (List.mem_of_mem_take hcm)).2, hb c hcm⟩
    rw [← hsub]
    exact ((List.take_sublist _ _).trans List.filter_sublist).countP_le
  · cases hb

/-- In a release build the flags alone decide: with `f` flagged cells. -/
theorem C104_release [NeZero q] {n ySize : Nat} (h1 : 1 ≤ n) (h64 : n < 64) (hny : n ≤ ySize) (h256 : ySize ≤ 256)
    (hq : q ≤ 2 ^ ySize) {dcs hcs : List (ZMod q)} (hd : dcs.length = 10) (hh : hcs.length = 10)
    (key m : ZMod q) (chCount want : Nat) (hw : 0 < want)
    (prove : CS (ZMod q) → CS (ZMod q) → List (ZMod q) → Option Bool) (hprove : ∀ pk s v, prove pk s v ≠ none)
    (file : Bytes) (hlen : (n + 1) * 2 ^ n ≤ 8 * file.length) (f : Nat)
    (hf : f = Set.ncard {c : Nat | c < 2 ^ n ∧ (leNat file).testBit ((n + 1) * c + n) = true}) :
    Set.ncard {b : Fin (chCount * n) → Fin 2 |
        spaceRoundR n ySize chCount want dcs hcs key m file (drawOf b) prove = .ok want} =
      ∑ j ∈ Finset.Icc want chCount, chCount.choose j * f ^ j * (2 ^ n - f) ^ (chCount - j) := by
  classical
  obtain ⟨g, hg, hch⟩ := challenges_bij chCount n (by omega) h64
  let S : Finset (Fin (2 ^ n)) := Finset.univ.filter (fun c => (leNat file).testBit ((n + 1) * c.val + n) = true)
  have hS : S.card = f := by
    rw [hf, ← Set.ncard_coe_finset, ← Set.ncard_image_of_injective _ Fin.val_injective]
    congr 1
    ext y
    simp only [Set.mem_image, Finset.mem_coe, S, Finset.mem_filter, Finset.mem_univ, true_and, Set.mem_ofPred_eq]
    constructor
    · rintro ⟨z, hz, rfl⟩
      exact ⟨z.isLt, hz⟩
    · rintro ⟨h, h'⟩
      exact ⟨⟨y, h⟩, h', rfl⟩
  rw [← hS, ← card_hits S want, ← Set.ncard_coe_finset, ← Set.ncard_image_of_injective _ hg.injective]
  congr 1
  ext v
  obtain ⟨b, rfl⟩ := hg.surjective v
  obtain ⟨cs, e1, -, e2⟩ := C103_release_round h1 h64 hny h256 hq hd hh key m chCount want hw (drawOf b) prove
    hprove file hlen _ rfl
  rw [hch b] at e1
  obtain rfl := Except.ok.inj e1
  rw [countP_ofFn] at e2
  simp only [Set.mem_image, Set.mem_ofPred_eq, Finset.coe_filter, Finset.mem_univ, true_and, S, Finset.mem_filter]
  constructor
  · rintro ⟨b', hb', e⟩
    obtain rfl := hg.injective e
    rw [e2] at hb'
    split at hb'
    · assumption
    · cases hb'
  · intro h
    exact ⟨b, by rw [e2, if_pos h], rfl⟩

/-- The table with one right and one wrong cell of eight; two challenges, one answer: 1 · 8 + 6 · 1 = 14 of
the 64 bit strings in a debug build, 64 - 36 = 28 in a release build. -/
example : Set.ncard {b : Fin (2 * 3) → Fin 2 | spaceRound (q := 103) 3 7 2 1 [1, 2, 3, 4, 5, 6, 7, 8, 9, 10]
      [1, 2, 3, 4, 5, 6, 7, 8, 9, 10] 5 6 [0x90, 0, 0x80, 0] (drawOf b) (fun _ _ _ => some true) = .ok 1} = 14 ∧
    Set.ncard {b : Fin (2 * 3) → Fin 2 | spaceRoundR (q := 103) 3 7 2 1 [1, 2, 3, 4, 5, 6, 7, 8, 9, 10]
      [1, 2, 3, 4, 5, 6, 7, 8, 9, 10] 5 6 [0x90, 0, 0x80, 0] (drawOf b) (fun _ _ _ => some true) = .ok 1} = 28 := by
  have hset : ∀ (P : Nat → Prop) [DecidablePred P], Set.ncard {c : Nat | c < 2 ^ 3 ∧ P c} = ((Finset.range 8).filter P).card := by
    intro P _
    rw [← Set.ncard_coe_finset]
    congr 1
    ext c
    simp
  constructor
  · rw [C104_count (q := 103) (n := 3) (ySize := 7) (by norm_num) (by norm_num) (by norm_num)
      (by norm_num) (by norm_num) (by norm_num) rfl rfl 5 6 2 1 (by norm_num) _ (by intros; simp) _ (by decide) 0x800090 (by decide)
      1 6 ?_ ?_]
    · decide
    · rw [hset]
      decide +kernel
    · rw [hset]
      decide +kernel
  · rw [C104_release (q := 103) (n := 3) (ySize := 7) (by norm_num) (by norm_num) (by norm_num)
      (by norm_num) (by norm_num) rfl rfl 5 6 2 1 (by norm_num) _ (by intros; simp) _ (by decide) 2 ?_]
    · decide
    · rw [show leNat [0x90, 0, 0x80, 0] = 0x800090 by decide, hset]
      decide +kernel

end PoS
