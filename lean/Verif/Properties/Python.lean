import Verif.Model.Python
import Mathlib.FieldTheory.Finite.Basic
import Mathlib.Data.Nat.Prime.Basic
import Mathlib.NumberTheory.LucasPrimality
import Mathlib.Tactic.Ring
import Mathlib.Tactic.NormNum

/-
C55, C61: the prime generator and the file comparison.
-/

namespace PoS

theorem rmSplit_spec (fuel : Nat) : ∀ s t, 0 < s → s < 2 ^ fuel →
    ∃ k, s = (rmSplit fuel s t).1 * 2 ^ k ∧ (rmSplit fuel s t).2 = t + k ∧ (rmSplit fuel s t).1 % 2 = 1 := by
  induction fuel with
  | zero => intro s t h1 h2; simp at h2; omega
  | succ fuel ih =>
    intro s t h1 h2
    rw [rmSplit]
    by_cases h : s % 2 = 0
    · rw [if_pos h]
      rw [Nat.pow_succ] at h2
      obtain ⟨k, e1, e2, e3⟩ := ih (s / 2) (t + 1) (by omega) (by omega)
      refine ⟨k + 1, ?_, by omega, e3⟩
      have : s = s / 2 * 2 := by omega
      rw [Nat.pow_succ, ← Nat.mul_assoc, ← e1]; exact this
    · rw [if_neg h]
      exact ⟨0, by simp, by simp, by show s % 2 = 1; omega⟩

/-- What the inner loop decides: some repeated square, fewer than the remaining number, is `num-1`. -/
theorem rmInner_iff (num t : Nat) (fuel : Nat) : ∀ i v, i < t → t ≤ fuel + i → v < num →
    (rmInner num t fuel i v = true ↔ ∃ j, i + j < t ∧ v ^ 2 ^ j % num = num - 1) := by
  induction fuel with
  | zero => intro i v h1 h2; omega
  | succ fuel ih =>
    intro i v h1 h2 hv
    rw [rmInner]
    by_cases h : v ≠ num - 1
    · rw [if_pos h]
      by_cases ht : i + 1 = t
      · rw [if_pos ht]
        refine ⟨(fun h => by cases h), fun ⟨j, hj, e⟩ => ?_⟩
        obtain rfl : j = 0 := by omega
        rw [Nat.pow_zero, Nat.pow_one, Nat.mod_eq_of_lt hv] at e
        exact absurd e h
      · rw [if_neg ht, ih (i + 1) _ (by omega) (by omega) (Nat.mod_lt _ (by omega))]
        constructor
        · rintro ⟨j, hj, e⟩
          refine ⟨j + 1, by omega, ?_⟩
          rw [← e, ← Nat.pow_mod, ← Nat.pow_mul, Nat.pow_succ, Nat.mul_comm]
        · rintro ⟨j, hj, e⟩
          rcases j with _ | j
          · rw [Nat.pow_zero, Nat.pow_one, Nat.mod_eq_of_lt hv] at e
            exact absurd e h
          · refine ⟨j, by omega, ?_⟩
            rw [← e, ← Nat.pow_mod, ← Nat.pow_mul, Nat.pow_succ, Nat.mul_comm]
    · rw [if_neg h]
      exact ⟨fun _ => ⟨0, by omega, by rw [Nat.pow_zero, Nat.pow_one, Nat.mod_eq_of_lt hv]; exact Decidable.not_not.mp h⟩, fun _ => rfl⟩

/-- `n` is a strong probable prime to base `a`: with `n - 1 = s * 2^t`, `s` odd. -/
def StrongProbable (n a : Nat) : Prop :=
  ∀ s t, n - 1 = s * 2 ^ t → s % 2 = 1 → a ^ s % n = 1 ∨ ∃ j < t, a ^ (s * 2 ^ j) % n = n - 1

theorem odd_part_unique {s t s' t' : Nat} (h : s * 2 ^ t = s' * 2 ^ t') (hs : s % 2 = 1) (hs' : s' % 2 = 1) : s = s' ∧ t = t' := by
  have key : ∀ {s t s' t' : Nat}, s * 2 ^ t = s' * 2 ^ t' → s % 2 = 1 → s' % 2 = 1 → t ≤ t' := by
    intro s t s' t' h hs hs'
    by_contra hlt
    have e : 2 ^ t = 2 ^ (t - t' - 1) * 2 * 2 ^ t' := by
      rw [← Nat.pow_succ, ← Nat.pow_add]; congr 1; omega
    rw [e, ← Nat.mul_assoc] at h
    have := Nat.eq_of_mul_eq_mul_right (Nat.two_pow_pos t') h
    rw [← this, ← Nat.mul_assoc, Nat.mul_mod_left] at hs'
    omega
  have ht : t = t' := Nat.le_antisymm (key h hs hs') (key h.symm hs' hs)
  subst ht
  exact ⟨Nat.eq_of_mul_eq_mul_right (Nat.two_pow_pos t) h, rfl⟩

/-- The Rabin-Miller function accepts an odd number exactly when it is a strong probable prime to
each of the five bases drawn from 2 to `n - 2`. -/
theorem C55_rabin_miller_iff (a : Nat → Nat) (n : Nat) (h1 : 2 < n) (hodd : n % 2 = 1) :
    rabinMiller a n = true ↔ ∀ k < 5, StrongProbable n (2 + a k % (n - 3)) := by
  obtain ⟨t, e1, e2, e3⟩ := rmSplit_spec n (n - 1) 0 (by omega) (by
    have := Nat.lt_two_pow_self (n := n); omega)
  have e2' : (rmSplit n (n - 1) 0).2 = t := by rw [e2, Nat.zero_add]
  unfold rabinMiller
  simp only [e2']
  generalize (rmSplit n (n - 1) 0).1 = s at e1 e3
  have ht : 0 < t := by
    rcases Nat.eq_zero_or_pos t with h | h
    · rw [h, Nat.pow_zero, Nat.mul_one] at e1; omega
    · exact h
  have htrial : ∀ b, rmTrial n s t b = true ↔ StrongProbable n b := by
    intro b
    have h3 : StrongProbable n b ↔ b ^ s % n = 1 ∨ ∃ j < t, b ^ (s * 2 ^ j) % n = n - 1 := by
      constructor
      · exact fun h => h s t e1 e3
      · intro h s' t' e1' e3'
        obtain ⟨rfl, rfl⟩ := odd_part_unique (e1.symm.trans e1') e3 e3'
        exact h
    rw [h3]
    unfold rmTrial
    by_cases h : b ^ s % n = 1
    · simp [h]
    · simp only [ne_eq, h, not_false_eq_true, if_true, false_or]
      rw [rmInner_iff n t t 0 _ ht (by omega) (Nat.mod_lt _ (by omega))]
      simp only [Nat.zero_add]
      constructor
      · rintro ⟨j, hj, e⟩
        exact ⟨j, hj, by rw [← e, ← Nat.pow_mod, ← Nat.pow_mul]⟩
      · rintro ⟨j, hj, e⟩
        exact ⟨j, hj, by rw [← e, ← Nat.pow_mod, ← Nat.pow_mul]⟩
  rw [List.all_eq_true]
  have hg : ∀ k, genRange (a k) 2 (n - 1) = 2 + a k % (n - 3) := fun k => by
    unfold genRange
    rw [show n - 1 - 2 = n - 3 by omega]
  simp only [List.mem_range, htrial, hg]

/-- A prime is a strong probable prime to every base it does not divide. -/
theorem strongProbable_prime {p : Nat} (hp : p.Prime) {a : Nat} (ha : ¬ p ∣ a) : StrongProbable p a := by
  have := Fact.mk hp
  intro s t e hs
  have h2 := hp.two_le
  have ha0 : (a : ZMod p) ≠ 0 := by rwa [Ne, ZMod.natCast_eq_zero_iff]
  have one_iff : ∀ x : Nat, x % p = 1 ↔ (x : ZMod p) = 1 := fun x => by
    have : ((1 : Nat) : ZMod p) = 1 := Nat.cast_one
    rw [← this, ZMod.natCast_eq_natCast_iff', Nat.mod_eq_of_lt (by omega : 1 < p)]
  have neg_iff : ∀ x : Nat, x % p = p - 1 ↔ (x : ZMod p) = -1 := fun x => by
    have : ((p - 1 : Nat) : ZMod p) = -1 := by rw [Nat.cast_sub (by omega)]; simp
    rw [← this, ZMod.natCast_eq_natCast_iff', Nat.mod_eq_of_lt (by omega : p - 1 < p)]
  have main : ∀ t, (a : ZMod p) ^ (s * 2 ^ t) = 1 → (a : ZMod p) ^ s = 1 ∨ ∃ j < t, (a : ZMod p) ^ (s * 2 ^ j) = -1 := by
    intro t
    induction t with
    | zero => intro h; left; simpa using h
    | succ t ih =>
      intro h
      rw [Nat.pow_succ, ← Nat.mul_assoc, pow_mul] at h
      rcases mul_self_eq_one_iff.mp ((sq _).symm.trans h) with h | h
      · rcases ih h with h | ⟨j, hj, h⟩
        · exact .inl h
        · exact .inr ⟨j, by omega, h⟩
      · exact .inr ⟨t, by omega, h⟩
  rcases main t (by rw [← e]; exact ZMod.pow_card_sub_one_eq_one ha0) with h | ⟨j, hj, h⟩
  · left; rw [one_iff]; push_cast; exact h
  · right; refine ⟨j, hj, ?_⟩; rw [neg_iff]; push_cast; exact h

theorem smallPrimes_prime : ∀ p ∈ smallPrimes, 2 ≤ p ∧ ∀ d < p, 2 ≤ d → ¬ p % d = 0 := by decide +kernel

theorem smallPrimes_complete : ∀ n < 1009, 2 ≤ n → n ∈ smallPrimes ∨ ∃ p ∈ smallPrimes, p < n ∧ n % p = 0 := by decide +kernel

theorem prime_of_mem_small {p : Nat} (h : p ∈ smallPrimes) : p.Prime := by
  obtain ⟨h2, hd⟩ := smallPrimes_prime p h
  rw [Nat.prime_def_lt']
  exact ⟨h2, fun m hm hlt hdvd => hd m hlt hm (Nat.mod_eq_zero_of_dvd hdvd)⟩

/-- `is_prime` returns `True` for every prime, whatever bases are drawn. -/
theorem C55_prime_accepted (a : Nat → Nat) (p : Nat) (hp : p.Prime) :
    isPrimePy a p = true := by
  unfold isPrimePy
  rw [if_neg (by have := hp.two_le; omega)]
  by_cases hs : smallPrimes.contains p
  · rw [if_pos hs]
  rw [if_neg hs]
  have hs' : p ∉ smallPrimes := fun h => hs (List.contains_iff_mem.mpr h)
  rw [if_neg ?_]
  · have h4 : 4 ≤ p := by
      have h2 := hp.two_le
      by_contra hlt
      have : p = 2 ∨ p = 3 := by omega
      rcases this with rfl | rfl <;> exact hs' (by decide)
    have hodd : p % 2 = 1 := (hp.eq_two_or_odd).resolve_left (by omega)
    rw [C55_rabin_miller_iff a p (by omega) hodd]
    intro k _
    refine strongProbable_prime hp (fun hd => ?_)
    have := Nat.le_of_dvd (by omega) hd
    have := Nat.mod_lt (a k) (show 0 < p - 3 by omega)
    omega
  · simp only [List.any_eq_true, decide_eq_true_eq, not_exists, not_and]
    intro q hq hmod
    rcases (Nat.dvd_prime hp).mp (Nat.dvd_of_mod_eq_zero hmod) with h | h
    · have := (prime_of_mem_small hq).one_lt; omega
    · exact hs' (h ▸ hq)

/-- The test of the prime 1009 reaches the Rabin-Miller rounds. -/
example : isPrimePy (fun _ => 7) 1009 = true ∧ smallPrimes.contains 1009 = false := by decide +kernel

/-- Below `1009^2` the answer is exact for whatever bases. -/
theorem C55_exact_below (a : Nat → Nat) (n : Nat) (hn : n < 1009 ^ 2) :
    isPrimePy a n = true ↔ n.Prime := by
  refine ⟨fun h => ?_, fun h => C55_prime_accepted a n h⟩
  unfold isPrimePy at h
  by_cases h2 : n < 2
  · rw [if_pos h2] at h; cases h
  rw [if_neg h2] at h
  by_cases hs : smallPrimes.contains n
  · exact prime_of_mem_small (List.contains_iff_mem.mp hs)
  rw [if_neg hs] at h
  by_cases hany : smallPrimes.any (fun p => n % p = 0)
  · rw [if_pos hany] at h; cases h
  simp only [List.any_eq_true, decide_eq_true_eq, not_exists, not_and] at hany
  by_contra hnp
  have hmin := Nat.minFac_sq_le_self (by omega) hnp
  have hlt : n.minFac < 1009 := by
    by_contra hge
    have : 1009 ^ 2 ≤ n.minFac ^ 2 := Nat.pow_le_pow_left (by omega) 2
    omega
  have hpm := Nat.minFac_prime (n := n) (by omega)
  rcases smallPrimes_complete _ hlt hpm.two_le with h | ⟨q, hq, hql, hqd⟩
  · exact hany _ h (Nat.mod_eq_zero_of_dvd (Nat.minFac_dvd n))
  · rcases (Nat.dvd_prime hpm).mp (Nat.dvd_of_mod_eq_zero hqd) with h | h
    · have := (prime_of_mem_small hq).one_lt; omega
    · omega

/-- From `1009^2` on, `True` does not imply prime: unlucky bases make it accept a composite. -/
theorem C55_composite_accepted : ∃ (n : Nat) (a : Nat → Nat), ¬ n.Prime ∧ isPrimePy a n = true :=
  ⟨1009 ^ 2, fun _ => 176575, by rw [Nat.pow_two]; exact Nat.not_prime_mul (by norm_num) (by norm_num), by decide +kernel⟩

/-- What `get_prime` returns lies in the interval drawn from, is 3 modulo 4 and passed the test; and
the search never skips a prime that is 3 modulo 4. -/
theorem C55_get_prime (bits : Nat) (hb : 0 < bits) (draw : Nat → Nat) (a : Nat → Nat → Nat) (fuel : Nat)
    (cand : Nat → Nat) (hc : ∀ k, cand k = 2 ^ (bits - 1) + draw k % 2 ^ (bits - 1)) :
    (∀ n, getPrime bits draw a fuel 0 = some n →
      2 ^ (bits - 1) ≤ n ∧ n < 2 ^ bits ∧ n % 4 = 3 ∧ ∃ k < fuel, cand k = n ∧ isPrimePy (a k) n = true ∧
        ∀ j < k, ¬ ((cand j).Prime ∧ cand j % 4 = 3)) ∧
    (∀ k < fuel, (cand k).Prime → cand k % 4 = 3 → ∃ n, getPrime bits draw a fuel 0 = some n) := by
  have h2 : 2 ^ bits = 2 ^ (bits - 1) + 2 ^ (bits - 1) := by
    rw [← Nat.two_mul, ← Nat.pow_succ']; congr 1; omega
  have hg : ∀ k, genRange (draw k) (2 ^ (bits - 1)) (2 ^ bits) = cand k := fun k => by
    unfold genRange
    rw [hc, h2, Nat.add_sub_cancel]
  have key : ∀ fuel k, (∀ n, getPrime bits draw a fuel k = some n → ∃ i, k ≤ i ∧ i < k + fuel ∧ cand i = n ∧ isPrimePy (a i) n = true ∧
        n % 4 = 3 ∧ ∀ j, k ≤ j → j < i → ¬ ((cand j).Prime ∧ cand j % 4 = 3)) ∧
      (∀ i, k ≤ i → i < k + fuel → (cand i).Prime → cand i % 4 = 3 → ∃ n, getPrime bits draw a fuel k = some n) := by
    intro fuel
    induction fuel with
    | zero => intro k; exact ⟨(fun n h => by cases h), fun i h1 h2 => by omega⟩
    | succ fuel ih =>
      intro k
      rw [getPrime]
      simp only [hg]
      by_cases h : isPrimePy (a k) (cand k) = true ∧ cand k % 4 = 3
      · rw [if_pos h]
        refine ⟨fun n hn => ?_, fun i _ _ _ _ => ⟨_, rfl⟩⟩
        cases hn
        exact ⟨k, by omega, by omega, rfl, h.1, h.2, fun j h1 h2 => by omega⟩
      · rw [if_neg h]
        have hk : ¬ ((cand k).Prime ∧ cand k % 4 = 3) := fun hp => h ⟨C55_prime_accepted _ _ hp.1, hp.2⟩
        refine ⟨fun n hn => ?_, fun i h1 h2 hp h4 => ?_⟩
        · obtain ⟨i, h1, h2, h3, h4, h5, h6⟩ := (ih (k + 1)).1 n hn
          refine ⟨i, by omega, by omega, h3, h4, h5, fun j hj1 hj2 => ?_⟩
          rcases Nat.eq_or_lt_of_le hj1 with rfl | hlt
          · exact hk
          · exact h6 j hlt hj2
        · rcases Nat.eq_or_lt_of_le h1 with rfl | hlt
          · exact absurd ⟨hp, h4⟩ hk
          · exact (ih (k + 1)).2 i hlt (by omega) hp h4
  refine ⟨fun n hn => ?_, fun k hk hp h4 => (key fuel 0).2 k (by omega) (by omega) hp h4⟩
  obtain ⟨i, -, h2', h3, h4, h5, h6⟩ := (key fuel 0).1 n hn
  have hlt := Nat.mod_lt (draw i) (Nat.two_pow_pos (bits - 1))
  have := hc i
  rw [h3] at this
  exact ⟨by omega, by omega, h5, i, by omega, h3, h4, fun j hj => h6 j (Nat.zero_le _) hj⟩

/-- The first candidate of ten bits that is a prime 3 modulo 4: 512 + 507 = 1019. -/
example : getPrime 10 (fun k => 504 + k) (fun _ _ => 5) 10 0 = some 1019 := by decide +kernel

/-! ### C61: the file comparison -/

theorem fileCompare_fold (a b : Bytes) (n : Nat) (hn : n ≤ min a.length b.length) :
    (List.range n).foldl (fun st i => if a[i]? ≠ b[i]? then (false, st.2 + 1) else st) (true, 0) =
      (decide (a.take n = b.take n), ((List.range n).filter (fun i => a[i]? ≠ b[i]?)).length) := by
  induction n with
  | zero => simp
  | succ n ih =>
    rw [List.range_succ, List.foldl_append, ih (by omega), List.filter_append]
    have ha : n < a.length := by omega
    have hb : n < b.length := by omega
    have hl : (a.take n).length = (b.take n).length := by simp; omega
    have e1 : a.take (n + 1) = a.take n ++ [a[n]] := by rw [List.take_add_one, List.getElem?_eq_getElem ha]; rfl
    have e2 : b.take (n + 1) = b.take n ++ [b[n]] := by rw [List.take_add_one, List.getElem?_eq_getElem hb]; rfl
    rw [e1, e2, List.foldl_cons, List.foldl_nil]
    have e3 : a[n]? = b[n]? ↔ a[n] = b[n] := by
      rw [List.getElem?_eq_getElem ha, List.getElem?_eq_getElem hb, Option.some_inj]
    have e4 : a.take n ++ [a[n]] = b.take n ++ [b[n]] ↔ a.take n = b.take n ∧ a[n] = b[n] :=
      ⟨fun e => by have := List.append_inj' e rfl; simpa using this, fun ⟨h1, h2⟩ => by rw [h1, h2]⟩
    by_cases h : a[n] = b[n]
    · rw [if_neg (fun h' => h' (e3.mpr h)), List.filter_cons_of_neg (by simpa using e3.mpr h)]
      rw [List.filter_nil, List.append_nil]
      simp only [e4]
      simp only [h, and_true]
    · rw [if_pos (fun h' => h (e3.mp h')), List.filter_cons_of_pos (by simpa [e3] using h)]
      simp only [e4]
      simp only [h, and_false, List.filter_nil, List.length_append, List.length_singleton, decide_false]

/-- The comparison says "good" exactly when one file is a prefix of the other, and otherwise counts
the differing positions of the common length. -/
theorem C61_verdict (a b : Bytes) :
    ((fileCompare a b).1 = true ↔ a <+: b ∨ b <+: a) ∧
    (fileCompare a b).2 = ((List.range (min a.length b.length)).filter (fun i => a[i]? ≠ b[i]?)).length := by
  have h := fileCompare_fold a b (min a.length b.length) (Nat.le_refl _)
  unfold fileCompare
  rw [h]
  refine ⟨?_, rfl⟩
  simp only [decide_eq_true_eq]
  constructor
  · intro h
    rcases Nat.le_total a.length b.length with hl | hl
    · left
      rw [Nat.min_eq_left hl, List.take_length] at h
      rw [h]; exact List.take_prefix _ _
    · right
      rw [Nat.min_eq_right hl, List.take_length] at h
      rw [← h]; exact List.take_prefix _ _
  · rintro (h | h)
    · rw [Nat.min_eq_left h.length_le, List.take_length]
      exact List.prefix_iff_eq_take.mp h
    · rw [Nat.min_eq_right h.length_le, List.take_length]
      exact (List.prefix_iff_eq_take.mp h).symm

/-- For files of equal length the verdict is equality … -/
theorem C61_equal_length (a b : Bytes) (h : a.length = b.length) : (fileCompare a b).1 = true ↔ a = b := by
  rw [(C61_verdict a b).1]
  constructor
  · rintro (h' | h')
    · exact h'.eq_of_length h
    · exact (h'.eq_of_length h.symm).symm
  · rintro rfl; exact .inl (List.prefix_refl _)

/-- Two differences in the common part; a file and a beginning of it. -/
example : fileCompare [1, 2, 3, 4] [1, 9, 3, 8, 5] = (false, 2) ∧ fileCompare [1, 2, 3] [1, 2] = (true, 0) := by decide

/-- … but every truncation of the original, down to the empty file, is called good. -/
theorem C61_truncated (a : Bytes) (n : Nat) : fileCompare a (a.take n) = (true, 0) := by
  have h := C61_verdict a (a.take n)
  have h1 := h.1.mpr (.inr (List.take_prefix _ _))
  refine Prod.ext h1 ?_
  rw [h.2, List.length_eq_zero_iff, List.filter_eq_nil_iff]
  intro i hi
  rw [List.mem_range, List.length_take] at hi
  simp [show i < n by omega]

end PoS
