import Verif.Properties.PrimeTest

/-
C110: which numbers `get_prime` returns how often.
-/

namespace PoS

/-- The random numbers of one iteration of `get_prime`: the position of the candidate in its range, and
five numbers from which the bases are made. -/
abbrev SearchStep (bits M : Nat) := Fin (2 ^ (bits - 1)) × (Fin 5 → Fin M)

/-- The candidate positions of `L` iterations. -/
def stepDraws {L bits M : Nat} (b : Fin L → SearchStep bits M) (k : Nat) : Nat :=
  if h : k < L then (b ⟨k, h⟩).1.val else 0

/-- The numbers for the bases in `L` iterations. -/
def stepBases {L bits M : Nat} (b : Fin L → SearchStep bits M) (k : Nat) : Nat → Nat :=
  if h : k < L then trialDraws (b ⟨k, h⟩).2 else fun _ => 0

/-- The strings of random numbers of `L` iterations after which `get_prime` has returned `n`. -/
def searchHits (bits M L n : Nat) : Set (Fin L → SearchStep bits M) :=
  {b | getPrime bits (stepDraws b) (stepBases b) L 0 = some n}

theorem getPrime_shift (s : Nat) (d : Nat → Nat) (a : Nat → Nat → Nat) (f k : Nat) :
    getPrime s d a f (k + 1) = getPrime s (fun i => d (i + 1)) (fun i => a (i + 1)) f k := by
  induction f generalizing k with
  | zero => rfl
  | succ f ih =>
    unfold getPrime
    rw [ih]

/-- The step makes `get_prime` return `n`. -/
def StepHits {bits M : Nat} (n : Nat) (w : SearchStep bits M) : Prop :=
  2 ^ (bits - 1) + w.1.val = n ∧ isPrimePy (trialDraws w.2) n = true ∧ n % 4 = 3

instance {bits M n : Nat} (w : SearchStep bits M) : Decidable (StepHits n w) := by
  unfold StepHits; infer_instance

theorem getPrime_cons {bits M L : Nat} (hb : 0 < bits) (w : SearchStep bits M) (v : Fin L → SearchStep bits M) :
    getPrime bits (stepDraws (Fin.cons w v : Fin (L + 1) → SearchStep bits M)) (stepBases (Fin.cons w v)) (L + 1) 0 =
      if StepHits (2 ^ (bits - 1) + w.1.val) w then some (2 ^ (bits - 1) + w.1.val)
      else getPrime bits (stepDraws v) (stepBases v) L 0 := by
  have e1 : (fun i => stepDraws (Fin.cons w v : Fin (L + 1) → SearchStep bits M) (i + 1)) = stepDraws v := by
    funext i
    unfold stepDraws
    by_cases h : i < L
    · rw [dif_pos (by omega), dif_pos h]; rfl
    · rw [dif_neg (by omega), dif_neg h]
  have e2 : (fun i => stepBases (Fin.cons w v : Fin (L + 1) → SearchStep bits M) (i + 1)) = stepBases v := by
    funext i
    unfold stepBases
    by_cases h : i < L
    · rw [dif_pos (by omega), dif_pos h]; rfl
    · rw [dif_neg (by omega), dif_neg h]
  have hg : genRange (stepDraws (Fin.cons w v : Fin (L + 1) → SearchStep bits M) 0) (2 ^ (bits - 1)) (2 ^ bits) =
      2 ^ (bits - 1) + w.1.val := by
    have h2 : 2 ^ bits - 2 ^ (bits - 1) = 2 ^ (bits - 1) := by
      obtain ⟨k, rfl⟩ : ∃ k, bits = k + 1 := ⟨bits - 1, by omega⟩
      rw [Nat.add_sub_cancel, Nat.pow_succ]
      omega
    unfold genRange
    rw [h2]
    unfold stepDraws
    rw [dif_pos (by omega)]
    congr 1
    exact Nat.mod_eq_of_lt w.1.isLt
  have hbs : stepBases (Fin.cons w v : Fin (L + 1) → SearchStep bits M) 0 = trialDraws w.2 := by
    unfold stepBases
    rw [dif_pos (by omega)]
    rfl
  conv_lhs => unfold getPrime
  simp only [hg, hbs]
  rw [getPrime_shift, e1, e2]
  congr 1
  unfold StepHits
  simp

theorem searchHits_zero (bits M n : Nat) : (searchHits bits M 0 n).ncard = 0 := by
  have : searchHits bits M 0 n = ∅ := by
    rw [Set.eq_empty_iff_forall_notMem]
    intro b hb
    cases hb
  rw [this, Set.ncard_empty]

theorem ncard_filter {α : Type} [Fintype α] (P : α → Prop) [DecidablePred P] :
    Set.ncard {a | P a} = (Finset.univ.filter P).card := by
  rw [← Set.ncard_coe_finset]
  congr 1
  ext a
  simp

/-- How the counts for one more iteration follow from those for one fewer. -/
theorem searchHits_succ (bits M L n : Nat) (hb : 0 < bits) :
    ∃ r, (∀ n, (searchHits bits M (L + 1) n).ncard =
      Set.ncard {w : SearchStep bits M | StepHits n w} * Nat.card (Fin L → SearchStep bits M) +
        r * (searchHits bits M L n).ncard) := by
  classical
  refine ⟨(Finset.univ.filter (fun w : SearchStep bits M => ¬ StepHits (2 ^ (bits - 1) + w.1.val) w)).card, fun n => ?_⟩
  unfold searchHits
  rw [ncard_filter, ncard_filter, ncard_filter, Nat.card_eq_fintype_card]
  have hpt : ∀ w : SearchStep bits M, (Finset.univ.filter (fun v : Fin L → SearchStep bits M =>
      getPrime bits (stepDraws (Fin.cons w v : Fin (L + 1) → SearchStep bits M)) (stepBases (Fin.cons w v)) (L + 1) 0 =
        some n)).card =
      (if StepHits n w then Fintype.card (Fin L → SearchStep bits M) else 0) +
      (if ¬ StepHits (2 ^ (bits - 1) + w.1.val) w then
        (Finset.univ.filter (fun v : Fin L → SearchStep bits M =>
          getPrime bits (stepDraws v) (stepBases v) L 0 = some n)).card else 0) := by
    intro w
    simp only [getPrime_cons hb]
    by_cases h : StepHits (2 ^ (bits - 1) + w.1.val) w
    · simp only [if_pos h]
      rw [if_neg (not_not.mpr h), Nat.add_zero]
      by_cases hn : 2 ^ (bits - 1) + w.1.val = n
      · subst hn
        rw [if_pos h]
        simp
      · rw [if_neg (fun hh => hn hh.1)]
        simp [hn]
    · simp only [if_neg h]
      rw [if_pos h, if_neg, Nat.zero_add]
      intro hh
      exact h (by rw [hh.1]; exact ⟨hh.1, hh.2⟩)
  rw [Finset.card_filter, ← (Fin.consEquiv (fun _ : Fin (L + 1) => SearchStep bits M)).sum_comp, Fintype.sum_prod_type]
  have hsum : ∀ w : SearchStep bits M, (∑ v : Fin L → SearchStep bits M,
      if getPrime bits (stepDraws (Fin.consEquiv (fun _ : Fin (L + 1) => SearchStep bits M) (w, v)))
        (stepBases (Fin.consEquiv (fun _ : Fin (L + 1) => SearchStep bits M) (w, v))) (L + 1) 0 = some n then 1 else 0) =
      _ := fun w => (Finset.card_filter _ _).symm.trans (hpt w)
  rw [Finset.sum_congr rfl (fun w _ => hsum w)]
  rw [Finset.sum_add_distrib, ← Finset.sum_filter, ← Finset.sum_filter, Finset.sum_const, Finset.sum_const, smul_eq_mul,
    smul_eq_mul]

theorem searchHits_le (bits M L n q A B : Nat) (hb : 0 < bits)
    (h : A * Set.ncard {w : SearchStep bits M | StepHits n w} ≤ B * Set.ncard {w : SearchStep bits M | StepHits q w}) :
    A * (searchHits bits M L n).ncard ≤ B * (searchHits bits M L q).ncard := by
  induction L with
  | zero => rw [searchHits_zero, searchHits_zero]; omega
  | succ L ih =>
    obtain ⟨r, hr⟩ := searchHits_succ bits M L n hb
    rw [hr n, hr q, Nat.mul_add, Nat.mul_add]
    apply Nat.add_le_add
    · rw [← Nat.mul_assoc, ← Nat.mul_assoc]
      exact Nat.mul_le_mul_right _ h
    · rw [Nat.mul_left_comm, Nat.mul_left_comm B]
      exact Nat.mul_le_mul_left _ ih

/-! ### one step -/

theorem stepHits_card (bits M n : Nat) (hb : 0 < bits) (h1 : 2 ^ (bits - 1) ≤ n) (h2 : n < 2 ^ bits) (h3 : n % 4 = 3) :
    Set.ncard {w : SearchStep bits M | StepHits n w} =
      Set.ncard {v : Fin 5 → Fin M | isPrimePy (trialDraws v) n = true} := by
  have hlt : n - 2 ^ (bits - 1) < 2 ^ (bits - 1) := by
    obtain ⟨k, rfl⟩ : ∃ k, bits = k + 1 := ⟨bits - 1, by omega⟩
    rw [Nat.add_sub_cancel] at h1 ⊢
    rw [Nat.pow_succ] at h2
    omega
  have : {w : SearchStep bits M | StepHits n w} =
      (fun v : Fin 5 → Fin M => ((⟨n - 2 ^ (bits - 1), hlt⟩, v) : SearchStep bits M)) ''
        {v : Fin 5 → Fin M | isPrimePy (trialDraws v) n = true} := by
    ext ⟨i, v⟩
    rw [Set.mem_image]
    constructor
    · rintro ⟨a, b, -⟩
      refine ⟨v, b, ?_⟩
      have : (⟨n - 2 ^ (bits - 1), hlt⟩ : Fin (2 ^ (bits - 1))) = i := Fin.ext (by simp only at a ⊢; omega)
      rw [this]
    · rintro ⟨v', hv, e⟩
      cases e
      exact ⟨by simp only; omega, hv, h3⟩
  rw [this]
  refine Set.ncard_image_of_injective _ (fun a b h => ?_)
  cases h
  rfl

theorem prime_bases (M q : Nat) (hq : q.Prime) :
    Set.ncard {v : Fin 5 → Fin M | isPrimePy (trialDraws v) q = true} = M ^ 5 := by
  have : {v : Fin 5 → Fin M | isPrimePy (trialDraws v) q = true} = Set.univ := by
    ext v
    simp [C55_prime_accepted _ q hq]
  rw [this, Set.ncard_univ, Nat.card_eq_fintype_card, Fintype.card_fun, Fintype.card_fin, Fintype.card_fin]

theorem isPrimePy_congr (a a' : Nat → Nat) (n : Nat) (h : ∀ k < 5, a k % (n - 3) = a' k % (n - 3)) :
    isPrimePy a n = isPrimePy a' n := by
  have : rabinMiller a n = rabinMiller a' n := by
    unfold rabinMiller
    simp only
    rw [Bool.eq_iff_iff, List.all_eq_true, List.all_eq_true]
    have e : ∀ k ∈ List.range 5, genRange (a k) 2 (n - 1) = genRange (a' k) 2 (n - 1) := by
      intro k hk
      unfold genRange
      rw [show n - 1 - 2 = n - 3 by omega, h k (List.mem_range.mp hk)]
    constructor
    · intro hh k hk
      rw [← e k hk]; exact hh k hk
    · intro hh k hk
      rw [e k hk]; exact hh k hk
  unfold isPrimePy
  rw [this]

/-- Numbers from a range that the size of the base range divides give every choice of five bases equally
often. -/
theorem bases_card (t n : Nat) (m : Nat) (hm : m = n - 3) :
    Set.ncard {v : Fin 5 → Fin (t * m) | isPrimePy (trialDraws v) n = true} =
      t ^ 5 * Set.ncard {v : Fin 5 → Fin m | isPrimePy (trialDraws v) n = true} := by
  rw [ncard_filter, ncard_filter, Finset.card_filter]
  let e : (Fin 5 → Fin t) × (Fin 5 → Fin m) ≃ (Fin 5 → Fin (t * m)) :=
    (Equiv.arrowProdEquivProdArrow (Fin 5) (fun _ => Fin t) (fun _ => Fin m)).symm.trans
      (Equiv.piCongrRight (fun _ => finProdFinEquiv))
  rw [← e.sum_comp, Fintype.sum_prod_type]
  have : ∀ (x : Fin 5 → Fin t) (y : Fin 5 → Fin m),
      isPrimePy (trialDraws (e (x, y))) n = isPrimePy (trialDraws y) n := by
    intro x y
    apply isPrimePy_congr
    intro k hk
    unfold trialDraws
    rw [dif_pos hk, dif_pos hk, ← hm]
    have : (e (x, y) ⟨k, hk⟩).val = (y ⟨k, hk⟩).val + m * (x ⟨k, hk⟩).val := rfl
    rw [this, Nat.add_mul_mod_self_left]
  simp only [this, ← Finset.card_filter]
  rw [Finset.sum_const, smul_eq_mul, Finset.card_univ, Fintype.card_fun, Fintype.card_fin, Fintype.card_fin]

/-! ### C110 -/

/-- Every prime of the requested size that is 3 modulo 4 is returned by as many strings of random numbers
as every other. -/
theorem C110_primes_alike (bits M L q q' : Nat) (hb : 0 < bits) (hq : q.Prime) (hq' : q'.Prime)
    (h1 : 2 ^ (bits - 1) ≤ q ∧ q < 2 ^ bits ∧ q % 4 = 3) (h2 : 2 ^ (bits - 1) ≤ q' ∧ q' < 2 ^ bits ∧ q' % 4 = 3) :
    (searchHits bits M L q).ncard = (searchHits bits M L q').ncard := by
  have e : Set.ncard {w : SearchStep bits M | StepHits q w} = Set.ncard {w : SearchStep bits M | StepHits q' w} := by
    rw [stepHits_card bits M q hb h1.1 h1.2.1 h1.2.2, stepHits_card bits M q' hb h2.1 h2.2.1 h2.2.2, prime_bases M q hq,
      prime_bases M q' hq']
  have a := searchHits_le bits M L q q' 1 1 hb (by omega)
  have b := searchHits_le bits M L q' q 1 1 hb (by omega)
  omega

/-- A composite number is returned by at most one 1024th as many strings as a prime.  The numbers from
which the bases are made come from a range that gives all bases of every candidate equally often. -/
theorem C110_composite (bits M L n q : Nat) (hb : 0 < bits)
    (hM : ∀ c, 2 ^ (bits - 1) ≤ c → c < 2 ^ bits → c - 3 ∣ M) (hn : ¬ n.Prime) (hq : q.Prime)
    (h2 : 2 ^ (bits - 1) ≤ q ∧ q < 2 ^ bits ∧ q % 4 = 3) :
    1024 * (searchHits bits M L n).ncard ≤ (searchHits bits M L q).ncard := by
  have key : 1024 * Set.ncard {w : SearchStep bits M | StepHits n w} ≤
      1 * Set.ncard {w : SearchStep bits M | StepHits q w} := by
    by_cases h1 : 2 ^ (bits - 1) ≤ n ∧ n < 2 ^ bits ∧ n % 4 = 3
    · rw [stepHits_card bits M n hb h1.1 h1.2.1 h1.2.2, stepHits_card bits M q hb h2.1 h2.2.1 h2.2.2, prime_bases M q hq]
      obtain ⟨t, ht⟩ := hM n h1.1 h1.2.1
      rw [Nat.mul_comm] at ht
      subst ht
      rw [bases_card t n (n - 3) rfl, Nat.mul_pow]
      have := Nat.mul_le_mul_left (t ^ 5) (C107_composite n hn)
      rw [show (4 : Nat) ^ 5 = 1024 by norm_num] at this
      rw [Nat.mul_left_comm, Nat.one_mul]
      exact this
    · have : {w : SearchStep bits M | StepHits n w} = ∅ := by
        rw [Set.eq_empty_iff_forall_notMem]
        rintro ⟨i, v⟩ ⟨a, -, c⟩
        apply h1
        simp only at a
        have hi := i.isLt
        have hp : 2 ^ bits = 2 * 2 ^ (bits - 1) := by
          obtain ⟨k, rfl⟩ : ∃ k, bits = k + 1 := ⟨bits - 1, by omega⟩
          rw [Nat.add_sub_cancel, Nat.pow_succ, Nat.mul_comm]
        omega
      rw [this, Set.ncard_empty]
      omega
  have := searchHits_le bits M L n q 1024 1 hb key
  omega

theorem hits_sum (bits M L : Nat) (S : Finset Nat) :
    Set.ncard {b : Fin L → SearchStep bits M | ∃ n ∈ S, b ∈ searchHits bits M L n} =
      ∑ n ∈ S, (searchHits bits M L n).ncard := by
  classical
  have e : {b : Fin L → SearchStep bits M | ∃ n ∈ S, b ∈ searchHits bits M L n} =
      ↑(S.biUnion (fun n => Finset.univ.filter (fun b : Fin L → SearchStep bits M =>
        getPrime bits (stepDraws b) (stepBases b) L 0 = some n))) := by
    ext b
    simp [searchHits]
  rw [e, Set.ncard_coe_finset, Finset.card_biUnion]
  · refine Finset.sum_congr rfl (fun n _ => ?_)
    unfold searchHits
    rw [ncard_filter]
  · intro x _ y _ hxy
    rw [Function.onFun, Finset.disjoint_left]
    intro b hb hb'
    rw [Finset.mem_filter] at hb hb'
    exact hxy (Option.some.inj (hb.2.symm.trans hb'.2))

/-- Over all strings of random numbers: those that make `get_prime` return a composite number are to those
that make it return a prime at most as the number of composite candidates that trial division leaves is to
1024 times the number of primes. -/
theorem C110_overall (bits M L : Nat) (hb : 0 < bits) (hM : ∀ c, 2 ^ (bits - 1) ≤ c → c < 2 ^ bits → c - 3 ∣ M)
    (cands : Finset Nat) (hc : ∀ n, n ∈ cands ↔ 2 ^ (bits - 1) ≤ n ∧ n < 2 ^ bits ∧ n % 4 = 3 ∧
      (n.Prime ∨ ∀ p, p.Prime → p < 1000 → ¬ p ∣ n)) :
    1024 * (cands.filter (fun n => n.Prime)).card *
        Set.ncard {b : Fin L → SearchStep bits M |
          ∃ n, ¬ n.Prime ∧ getPrime bits (stepDraws b) (stepBases b) L 0 = some n} ≤
      (cands.filter (fun n => ¬ n.Prime)).card *
        Set.ncard {b : Fin L → SearchStep bits M |
          ∃ n, n.Prime ∧ getPrime bits (stepDraws b) (stepBases b) L 0 = some n} := by
  classical
  have hmem : ∀ (b : Fin L → SearchStep bits M) n, getPrime bits (stepDraws b) (stepBases b) L 0 = some n → n ∈ cands := by
    intro b n hn
    obtain ⟨h1, h2, h3, k, -, -, h4, -⟩ := (C55_get_prime bits hb (stepDraws b) (stepBases b) L _ (fun _ => rfl)).1 n hn
    rw [hc]
    refine ⟨h1, h2, h3, ?_⟩
    by_cases hp : n.Prime
    · exact Or.inl hp
    · right
      intro p hpp hlt hd
      unfold isPrimePy at h4
      rw [if_neg (by omega)] at h4
      split at h4
      · next hcn => exact hp (prime_of_mem_small (List.contains_iff_mem.mp hcn))
      split at h4
      · cases h4
      next hany =>
      apply hany
      rw [List.any_eq_true]
      refine ⟨p, ?_, by simpa using Nat.mod_eq_zero_of_dvd hd⟩
      rcases smallPrimes_complete p (by omega) hpp.two_le with h | ⟨q, hq, hql, hqd⟩
      · exact h
      · rcases (Nat.dvd_prime hpp).mp (Nat.dvd_of_mod_eq_zero hqd) with h | h
        · have := (prime_of_mem_small hq).one_lt; omega
        · omega
  have eP : {b : Fin L → SearchStep bits M | ∃ n, n.Prime ∧ getPrime bits (stepDraws b) (stepBases b) L 0 = some n} =
      {b | ∃ n ∈ cands.filter (fun n => n.Prime), b ∈ searchHits bits M L n} := by
    ext b
    constructor
    · rintro ⟨n, hn, h⟩
      exact ⟨n, Finset.mem_filter.mpr ⟨hmem b n h, hn⟩, h⟩
    · rintro ⟨n, hn, h⟩
      exact ⟨n, (Finset.mem_filter.mp hn).2, h⟩
  have eC : {b : Fin L → SearchStep bits M | ∃ n, ¬ n.Prime ∧ getPrime bits (stepDraws b) (stepBases b) L 0 = some n} =
      {b | ∃ n ∈ cands.filter (fun n => ¬ n.Prime), b ∈ searchHits bits M L n} := by
    ext b
    constructor
    · rintro ⟨n, hn, h⟩
      exact ⟨n, Finset.mem_filter.mpr ⟨hmem b n h, hn⟩, h⟩
    · rintro ⟨n, hn, h⟩
      exact ⟨n, (Finset.mem_filter.mp hn).2, h⟩
  rw [eP, eC, hits_sum, hits_sum]
  rcases (cands.filter (fun n => n.Prime)).eq_empty_or_nonempty with h0 | ⟨q, hq⟩
  · rw [h0, Finset.card_empty, Nat.mul_zero, Nat.zero_mul]
    exact Nat.zero_le _
  · have range : ∀ n ∈ cands.filter (fun n => n.Prime), n.Prime ∧ 2 ^ (bits - 1) ≤ n ∧ n < 2 ^ bits ∧ n % 4 = 3 := by
      intro n hn
      rw [Finset.mem_filter, hc] at hn
      exact ⟨hn.2, hn.1.1, hn.1.2.1, hn.1.2.2.1⟩
    have s1 : ∑ n ∈ cands.filter (fun n => n.Prime), (searchHits bits M L n).ncard =
        (cands.filter (fun n => n.Prime)).card * (searchHits bits M L q).ncard := by
      rw [Finset.sum_congr rfl (fun n hn => C110_primes_alike bits M L n q hb (range n hn).1 (range q hq).1 (range n hn).2
        (range q hq).2), Finset.sum_const, smul_eq_mul]
    have s2 : 1024 * ∑ n ∈ cands.filter (fun n => ¬ n.Prime), (searchHits bits M L n).ncard ≤
        (cands.filter (fun n => ¬ n.Prime)).card * (searchHits bits M L q).ncard := by
      rw [Finset.mul_sum, ← smul_eq_mul, ← Finset.sum_const]
      exact Finset.sum_le_sum (fun n hn => C110_composite bits M L n q hb hM (Finset.mem_filter.mp hn).2 (range q hq).1
        (range q hq).2)
    rw [s1]
    calc _ = (cands.filter (fun n => n.Prime)).card *
          (1024 * ∑ n ∈ cands.filter (fun n => ¬ n.Prime), (searchHits bits M L n).ncard) := by ring
      _ ≤ (cands.filter (fun n => n.Prime)).card *
          ((cands.filter (fun n => ¬ n.Prime)).card * (searchHits bits M L q).ncard) := Nat.mul_le_mul_left _ s2
      _ = _ := by ring

/-- There are ranges as the statements ask for. -/
theorem searchRange_exists (bits : Nat) (hb : 3 ≤ bits) :
    0 < (2 ^ bits).factorial ∧ ∀ c, 2 ^ (bits - 1) ≤ c → c < 2 ^ bits → c - 3 ∣ (2 ^ bits).factorial := by
  refine ⟨Nat.factorial_pos _, fun c h1 h2 => Nat.dvd_factorial ?_ (by omega)⟩
  have := Nat.pow_le_pow_right (show 0 < 2 by norm_num) (show 2 ≤ bits - 1 by omega)
  omega

/-- Primes are returned by some strings: as soon as there is one iteration. -/
theorem C110_reached (bits M L q : Nat) (hb : 0 < bits) (hM : 0 < M) (hq : q.Prime)
    (h : 2 ^ (bits - 1) ≤ q ∧ q < 2 ^ bits ∧ q % 4 = 3) : 0 < (searchHits bits M (L + 1) q).ncard := by
  obtain ⟨r, hr⟩ := searchHits_succ bits M L q hb
  rw [hr q, stepHits_card bits M q hb h.1 h.2.1 h.2.2, prime_bases M q hq]
  have h1 : 0 < Nat.card (Fin L → SearchStep bits M) := by
    haveI : Nonempty (SearchStep bits M) := ⟨(⟨0, Nat.pos_of_ne_zero (by simp)⟩, fun _ => ⟨0, hM⟩)⟩
    exact Nat.card_pos
  have h2 : 0 < M ^ 5 := Nat.pow_pos hM
  have := Nat.mul_pos h2 h1
  omega

/-- The hypotheses can be met: three bits, the prime 7; a range for the bases. -/
example : (∀ c, 2 ^ (3 - 1) ≤ c → c < 2 ^ 3 → c - 3 ∣ 12) ∧ Nat.Prime 7 ∧ 2 ^ (3 - 1) ≤ 7 ∧ 7 < 2 ^ 3 ∧ 7 % 4 = 3 ∧
    (fun b : Fin 1 → SearchStep 3 12 => getPrime 3 (stepDraws b) (stepBases b) 1 0)
      (fun _ => (⟨3, by norm_num⟩, fun _ => ⟨5, by norm_num⟩)) = some 7 := by
  refine ⟨fun c h1 h2 => ?_, by decide, by norm_num, by norm_num, by norm_num, by decide +kernel⟩
  norm_num at h1 h2
  interval_cases c <;> norm_num

end PoS
