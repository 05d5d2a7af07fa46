import Verif.Model.Depend
import Verif.Proofs.Basic

/-
Helper lemmas about `Verif/Model/Depend.lean`.
-/

namespace PoS

/-! ### `sortDedup` -/

theorem mem_sortDedup {l : List Nat} {x : Nat} : x ∈ sortDedup l ↔ x ∈ l := by
  unfold sortDedup
  rw [List.mem_insertionSort, List.mem_dedup]

theorem sortDedup_length (l : List Nat) : (sortDedup l).length ≤ l.length := by
  unfold sortDedup
  rw [List.length_insertionSort]
  exact (List.dedup_sublist l).length_le

theorem sortDedup_sorted (l : List Nat) : (sortDedup l).Pairwise (· < ·) := by
  unfold sortDedup
  have h1 : (l.dedup.insertionSort (· ≤ ·)).Pairwise (· ≤ ·) := List.pairwise_insertionSort _ _
  have h2 : (l.dedup.insertionSort (· ≤ ·)).Nodup :=
    ((List.perm_insertionSort (· ≤ ·) l.dedup).nodup_iff).mpr (List.nodup_dedup l)
  exact (h1.and h2).imp (fun h => lt_of_le_of_ne h.1 h.2)

/-! ### Reading hash bytes -/

/-- The values `data_idx` can take, by step. -/
def InWindow (step v : Nat) : Prop := 256 * (step * (step - 1) / 2) ≤ v ∧ v ≤ 256 * (step * (step - 1) / 2) + 255 * step

theorem dataIdx_ok {hash : Bytes} {step i : Nat} (h : i + step ≤ hash.length) :
    ∃ v, dataIdx hash step i = .ok v := by
  unfold dataIdx
  obtain ⟨t, ht, -⟩ := forUp_total (n := step) (f := fun j acc => do
      let b ← at! hash (i + j)
      pure (acc + (j * 2 ^ 8 + b.toNat))) (s := 0) (fun _ _ => True) trivial
    (fun k hk s _ => ⟨_, by rw [at!_of_lt (by omega)]; rfl, trivial⟩)
  exact ⟨t, ht⟩

theorem dataIdx_error {hash : Bytes} {step i : Nat} (h : hash.length < i + step) (hi : i ≤ hash.length) :
    dataIdx hash step i = .error .index := by
  unfold dataIdx
  obtain ⟨t, ht, -⟩ := forUp_total (n := hash.length - i) (f := fun j acc => do
      let b ← at! hash (i + j)
      pure (acc + (j * 2 ^ 8 + b.toNat))) (s := 0) (fun _ _ => True) trivial
    (fun k hk s _ => ⟨_, by rw [at!_of_lt (by omega)]; rfl, trivial⟩)
  refine forUp_error_of (k := hash.length - i) (by omega) ht ?_
  rw [at!_ge (by omega)]; rfl

theorem dataIdx_window {hash : Bytes} {step i v : Nat} (h : dataIdx hash step i = .ok v) :
    InWindow step v := by
  have key : ∀ n : Nat, n * (n - 1) / 2 + n = (n + 1) * (n + 1 - 1) / 2 := by
    intro n
    have h2 : (n + 1) * (n + 1 - 1) = n * (n - 1) + n * 2 := by
      cases n with
      | zero => rfl
      | succ n => simp; ring
    rw [h2, Nat.add_mul_div_right _ _ (by norm_num)]
  unfold dataIdx at h
  refine forUp_inv (fun k s => InWindow k s) (by simp [InWindow]) ?_ h
  intro k hk s s' hs hf
  rw [bind_eq_ok] at hf
  obtain ⟨b, -, hb⟩ := hf
  cases hb
  have hb := UInt8.toNat_lt b
  unfold InWindow at hs ⊢
  have := key k
  omega

/-! ### Scans

Both random modes are analysed through one relation: every entry pushed is the
residue modulo `m` of a window value. -/

/-- Entries of a random dependency list: residues of window values, subject to `ok`. -/
def Entries (step m : Nat) (ok : Nat → Prop) (l : List Nat) : Prop :=
  ∀ d ∈ l, ok d ∧ ∃ v, InWindow step v ∧ d = v % m

theorem longScan_inv {hash : Bytes} {step index count : Nat} (ps : List Nat)
    (s s' : List Nat × Nat) (h : longScan hash step index count ps s = .ok s')
    (he : Entries step index (fun _ => True) s.1) (hl : s.1.length = s.2) (hc : s.2 ≤ count) :
    Entries step index (fun _ => True) s'.1 ∧ s'.1.length = s'.2 ∧ s'.2 ≤ count := by
  induction ps generalizing s with
  | nil =>
    simp only [longScan, Except.ok.injEq] at h
    subst h; exact ⟨he, hl, hc⟩
  | cons i ps ih =>
    obtain ⟨acc, c⟩ := s
    unfold longScan at h
    split at h
    · rename_i hlt
      rw [bind_eq_ok] at h
      obtain ⟨d, hd, h⟩ := h
      rw [bind_eq_ok] at h
      obtain ⟨dep, hdep, h⟩ := h
      refine ih _ h ?_ (by simp at hl ⊢; exact hl) hlt
      intro x hx
      simp only [List.mem_append, List.mem_singleton] at hx
      rcases hx with hx | hx
      · exact he x hx
      · unfold mod! at hdep
        split at hdep
        · cases hdep
        · cases hdep
          exact ⟨trivial, d, dataIdx_window hd, hx⟩
    · simp only [Except.ok.injEq] at h
      subst h; exact ⟨he, hl, hc⟩

theorem longScan_ok {hash : Bytes} {step index count : Nat} (ps : List Nat)
    (s : List Nat × Nat) (hps : ∀ i ∈ ps, i + step ≤ hash.length) (hi : 0 < index) :
    ∃ s', longScan hash step index count ps s = .ok s' := by
  induction ps generalizing s with
  | nil => exact ⟨s, rfl⟩
  | cons i ps ih =>
    obtain ⟨acc, c⟩ := s
    unfold longScan
    split
    · obtain ⟨v, hv⟩ := dataIdx_ok (hps i (by simp))
      rw [hv, bind_ok, mod!_of_pos hi, bind_ok]
      exact ih _ (fun j hj => hps j (by simp [hj]))
    · exact ⟨_, rfl⟩

theorem hash16_ok {H : Bytes → Bytes} (hH : ∀ x, (H x).length = 32) (d : Bytes) :
    ∃ h, hash16 H d = .ok h ∧ h.length = 16 := by
  unfold hash16 slice!
  rw [if_pos (by rw [hH]; omega)]
  exact ⟨_, rfl, by simp [hH]⟩

theorem positions_small {step : Nat} (h : step = 1 ∨ step = 2) : ∀ i ∈ positions step, i + step ≤ 16 := by
  intro i hi
  unfold positions at hi
  rw [List.mem_map] at hi
  obtain ⟨a, ha, rfl⟩ := hi
  rw [List.mem_range] at ha
  rcases h with rfl | rfl <;> omega

theorem stepOf_small {num : Nat} (h : num ≤ 65536) : stepOf num = 1 ∨ stepOf num = 2 := by
  unfold stepOf
  by_cases h1 : num ≤ 2 ^ 8
  · rw [if_pos h1]; simp
  · rw [if_neg h1, if_pos (by omega)]; simp

theorem longRehash_inv {H : Bytes → Bytes} {step index count : Nat} (r : Nat) (hash : Bytes)
    (s s' : List Nat × Nat) (h : longRehash H step index count r hash s = .ok s')
    (he : Entries step index (fun _ => True) s.1) (hl : s.1.length = s.2) (hc : s.2 ≤ count) :
    Entries step index (fun _ => True) s'.1 ∧ s'.1.length = s'.2 ∧ s'.2 ≤ count := by
  induction r generalizing hash s with
  | zero =>
    simp only [longRehash, Except.ok.injEq] at h
    subst h; exact ⟨he, hl, hc⟩
  | succ r ih =>
    unfold longRehash at h
    rw [bind_eq_ok] at h
    obtain ⟨h', -, h⟩ := h
    rw [bind_eq_ok] at h
    obtain ⟨s1, hs1, h⟩ := h
    obtain ⟨a, b, c⟩ := longScan_inv _ _ _ hs1 he hl hc
    split at h
    · cases h; exact ⟨a, b, c⟩
    · exact ih _ _ h a b c

theorem longRehash_ok {H : Bytes → Bytes} (hH : ∀ x, (H x).length = 32) {step index count : Nat}
    (hstep : step = 1 ∨ step = 2) (hi : 0 < index) (r : Nat) (hash : Bytes)
    (s : List Nat × Nat) : ∃ s', longRehash H step index count r hash s = .ok s' := by
  induction r generalizing hash s with
  | zero => exact ⟨s, rfl⟩
  | succ r ih =>
    unfold longRehash
    obtain ⟨h', hh, hl⟩ := hash16_ok hH hash
    rw [hh, bind_ok]
    obtain ⟨s1, hs1⟩ := longScan_ok (hash := h') (count := count) (positions step) s
      (by rw [hl]; exact positions_small hstep) hi
    rw [hs1, bind_ok]
    split
    · exact ⟨s1, rfl⟩
    · exact ih _ _

theorem longModeRandom_ok {H : Bytes → Bytes} (hH : ∀ x, (H x).length = 32) {num index count : Nat}
    (hnum : num ≤ 65536) (data : Bytes) : ∃ l, longModeRandom H num data index count = .ok l := by
  unfold longModeRandom
  split
  · exact ⟨[], rfl⟩
  · rename_i h0
    obtain ⟨h', hh, hl⟩ := hash16_ok hH data
    have hs := stepOf_small hnum
    obtain ⟨s1, hs1⟩ := longScan_ok (hash := h') (count := count) (positions (stepOf num)) ([], 0)
      (by rw [hl]; exact positions_small hs) (Nat.pos_of_ne_zero h0)
    obtain ⟨s2, hs2⟩ := longRehash_ok (count := count) hH hs (Nat.pos_of_ne_zero h0)
      (count / (8 * stepOf num) - 1) h' s1
    simp only [hh, bind_ok, hs1, hs2]
    exact ⟨_, rfl⟩

/-- Shape of a hash-chosen long dependency list. -/
theorem longModeRandom_spec {H : Bytes → Bytes} {num index count : Nat} {data : Bytes} {l : List Nat}
    (h : longModeRandom H num data index count = .ok l) :
    l.Pairwise (· < ·) ∧ l.length ≤ count ∧ (∀ d ∈ l, d < index) ∧
      ∀ d ∈ l, ∃ v, InWindow (stepOf num) v ∧ d = v % index := by
  unfold longModeRandom at h
  split at h
  · cases h; simp
  · rename_i h0
    rw [bind_eq_ok] at h
    obtain ⟨h', -, h⟩ := h
    rw [bind_eq_ok] at h
    obtain ⟨s1, hs1, h⟩ := h
    rw [bind_eq_ok] at h
    obtain ⟨s2, hs2, h⟩ := h
    cases h
    obtain ⟨a, b, c⟩ := longScan_inv _ _ _ hs1 (by intro d hd; simp at hd) rfl (Nat.zero_le _)
    obtain ⟨a, b, c⟩ := longRehash_inv _ _ _ _ hs2 a b c
    refine ⟨sortDedup_sorted _, le_trans (sortDedup_length _) (by omega), ?_, ?_⟩
    · intro d hd
      obtain ⟨-, v, -, rfl⟩ := a d (mem_sortDedup.mp hd)
      exact Nat.mod_lt _ (Nat.pos_of_ne_zero h0)
    · intro d hd
      obtain ⟨-, v, hv, rfl⟩ := a d (mem_sortDedup.mp hd)
      exact ⟨v, hv, rfl⟩

/-! ### Short random mode -/

theorem shortScan_inv {hash : Bytes} {step num index count : Nat} (ps : List Nat)
    (s s' : List Nat × Nat) (h : shortScan hash step num index count ps s = .ok s')
    (he : Entries step num (fun d => d ≠ index ∧ d < num) s.1) (hl : s.1.length = s.2) (hc : s.2 ≤ count) :
    Entries step num (fun d => d ≠ index ∧ d < num) s'.1 ∧ s'.1.length = s'.2 ∧ s'.2 ≤ count := by
  induction ps generalizing s with
  | nil =>
    simp only [shortScan, Except.ok.injEq] at h
    subst h; exact ⟨he, hl, hc⟩
  | cons i ps ih =>
    obtain ⟨acc, c⟩ := s
    unfold shortScan at h
    split at h
    · rename_i hlt
      rw [bind_eq_ok] at h
      obtain ⟨d, hd, h⟩ := h
      rw [bind_eq_ok] at h
      obtain ⟨dep, hdep, h⟩ := h
      split at h
      · rename_i hne
        refine ih _ h ?_ (by simp at hl ⊢; exact hl) hlt
        intro x hx
        simp only [List.mem_append, List.mem_singleton] at hx
        rcases hx with hx | hx
        · exact he x hx
        · unfold mod! at hdep
          split at hdep
          · cases hdep
          · rename_i hn0
            cases hdep
            subst hx
            exact ⟨⟨hne, Nat.mod_lt _ (Nat.pos_of_ne_zero hn0)⟩, d, dataIdx_window hd, rfl⟩
      · exact ih _ h he hl hc
    · simp only [Except.ok.injEq] at h
      subst h; exact ⟨he, hl, hc⟩

theorem shortScan_ok {hash : Bytes} {step num index count : Nat} (ps : List Nat)
    (s : List Nat × Nat) (hps : ∀ i ∈ ps, i + step ≤ hash.length) (hi : 0 < num) :
    ∃ s', shortScan hash step num index count ps s = .ok s' := by
  induction ps generalizing s with
  | nil => exact ⟨s, rfl⟩
  | cons i ps ih =>
    obtain ⟨acc, c⟩ := s
    unfold shortScan
    split
    · obtain ⟨v, hv⟩ := dataIdx_ok (hps i (by simp))
      rw [hv, bind_ok, mod!_of_pos hi, bind_ok]
      split
      · exact ih _ (fun j hj => hps j (by simp [hj]))
      · exact ih _ (fun j hj => hps j (by simp [hj]))
    · exact ⟨_, rfl⟩

theorem shortRehash_inv {H : Bytes → Bytes} {step num index count : Nat} (r : Nat) (hash : Bytes)
    (s s' : List Nat × Nat) (h : shortRehash H step num index count r hash s = .ok s')
    (he : Entries step num (fun d => d ≠ index ∧ d < num) s.1) (hl : s.1.length = s.2) (hc : s.2 ≤ count) :
    Entries step num (fun d => d ≠ index ∧ d < num) s'.1 ∧ s'.1.length = s'.2 ∧ s'.2 ≤ count := by
  induction r generalizing hash s with
  | zero =>
    simp only [shortRehash, Except.ok.injEq] at h
    subst h; exact ⟨he, hl, hc⟩
  | succ r ih =>
    unfold shortRehash at h
    rw [bind_eq_ok] at h
    obtain ⟨h', -, h⟩ := h
    rw [bind_eq_ok] at h
    obtain ⟨s1, hs1, h⟩ := h
    obtain ⟨a, b, c⟩ := shortScan_inv _ _ _ hs1 he hl hc
    split at h
    · cases h; exact ⟨a, b, c⟩
    · exact ih _ _ h a b c

theorem shortRehash_ok {H : Bytes → Bytes} (hH : ∀ x, (H x).length = 32) {step num index count : Nat}
    (hstep : step = 1 ∨ step = 2) (hi : 0 < num) (r : Nat) (hash : Bytes)
    (s : List Nat × Nat) : ∃ s', shortRehash H step num index count r hash s = .ok s' := by
  induction r generalizing hash s with
  | zero => exact ⟨s, rfl⟩
  | succ r ih =>
    unfold shortRehash
    obtain ⟨h', hh, hl⟩ := hash16_ok hH hash
    rw [hh, bind_ok]
    obtain ⟨s1, hs1⟩ := shortScan_ok (hash := h') (index := index) (count := count) (positions step) s
      (by rw [hl]; exact positions_small hstep) hi
    rw [hs1, bind_ok]
    split
    · exact ⟨s1, rfl⟩
    · exact ih _ _

theorem shortDependRandom_ok {H : Bytes → Bytes} (hH : ∀ x, (H x).length = 32)
    {num index count : Nat} (hn0 : 0 < num) (hnum : num ≤ 65536) (data : Bytes) :
    ∃ l, shortDependRandom H num data index count = .ok l := by
  unfold shortDependRandom
  obtain ⟨h', hh, hl⟩ := hash16_ok hH data
  have hs := stepOf_small hnum
  obtain ⟨s1, hs1⟩ := shortScan_ok (hash := h') (index := index) (count := count)
    (positions (stepOf num)) ([], 0) (by rw [hl]; exact positions_small hs) hn0
  obtain ⟨s2, hs2⟩ := shortRehash_ok (index := index) (count := count) hH hs hn0
    (count / (8 * stepOf num) - 1) h' s1
  simp only [hh, bind_ok, hs1, hs2]
  exact ⟨_, rfl⟩

/-- Shape of a hash-chosen short dependency list. -/
theorem shortDependRandom_spec {H : Bytes → Bytes} {num index count : Nat} {data : Bytes}
    {l : List Nat} (h : shortDependRandom H num data index count = .ok l) :
    l.Pairwise (· < ·) ∧ l.length ≤ count ∧ (∀ d ∈ l, d ≠ index ∧ d < num) ∧
      ∀ d ∈ l, ∃ v, InWindow (stepOf num) v ∧ d = v % num := by
  unfold shortDependRandom at h
  rw [bind_eq_ok] at h
  obtain ⟨h', -, h⟩ := h
  rw [bind_eq_ok] at h
  obtain ⟨s1, hs1, h⟩ := h
  rw [bind_eq_ok] at h
  obtain ⟨s2, hs2, h⟩ := h
  cases h
  obtain ⟨a, b, c⟩ := shortScan_inv _ _ _ hs1 (by intro d hd; simp at hd) rfl (Nat.zero_le _)
  obtain ⟨a, b, c⟩ := shortRehash_inv _ _ _ _ hs2 a b c
  refine ⟨sortDedup_sorted _, le_trans (sortDedup_length _) (by omega), ?_, ?_⟩
  · intro d hd
    exact (a d (mem_sortDedup.mp hd)).1
  · intro d hd
    exact (a d (mem_sortDedup.mp hd)).2

/-! ### More than 65536 positions -/

theorem stepOf_large {num : Nat} (h : 65536 < num) : stepOf num = 3 := by
  unfold stepOf
  rw [if_neg (by omega), if_neg (by omega)]

/-- A scan that reaches position 15 with step 3 while entries are missing panics. -/
theorem longScan_large {hash : Bytes} (hl : hash.length = 16) {index count : Nat} (hi : 0 < index)
    (hc : 6 ≤ count) : longScan hash 3 index count (positions 3) ([], 0) = .error .index := by
  have hp : positions 3 = [0, 3, 6, 9, 12, 15] := rfl
  rw [hp]
  have hd : ∀ i, i + 3 ≤ 16 → ∃ v, dataIdx hash 3 i = .ok v := fun i h => dataIdx_ok (by omega)
  obtain ⟨v0, h0⟩ := hd 0 (by omega)
  obtain ⟨v1, h1⟩ := hd 3 (by omega)
  obtain ⟨v2, h2⟩ := hd 6 (by omega)
  obtain ⟨v3, h3⟩ := hd 9 (by omega)
  obtain ⟨v4, h4⟩ := hd 12 (by omega)
  have h5 : dataIdx hash 3 15 = .error .index := dataIdx_error (by omega) (by omega)
  have hm : ∀ v, mod! v index = .ok (v % index) := fun v => mod!_of_pos hi
  simp only [longScan, h0, h1, h2, h3, h4, h5, hm, bind_ok, bind_error]
  rw [if_pos (by omega), if_pos (by omega), if_pos (by omega), if_pos (by omega), if_pos (by omega),
    if_pos (by omega)]

theorem shortScan_large {hash : Bytes} (hl : hash.length = 16) {num index count : Nat} (hi : 0 < num)
    (hc : 6 ≤ count) : shortScan hash 3 num index count (positions 3) ([], 0) = .error .index := by
  have hp : positions 3 = [0, 3, 6, 9, 12, 15] := rfl
  rw [hp]
  have h5 : dataIdx hash 3 15 = .error .index := dataIdx_error (by omega) (by omega)
  have gen : ∀ (ps : List Nat) (s : List Nat × Nat), (∀ i ∈ ps, i + 3 ≤ 16) → s.2 + ps.length + 1 ≤ count →
      shortScan hash 3 num index count (ps ++ [15]) s = .error .index := by
    intro ps
    induction ps with
    | nil =>
      intro s _ hs
      obtain ⟨acc, c⟩ := s
      simp only [List.nil_append, shortScan, h5, bind_error]
      simp only [List.length_nil] at hs
      rw [if_pos (by omega)]
    | cons i ps ih =>
      intro s hps hs
      obtain ⟨acc, c⟩ := s
      obtain ⟨v, hv⟩ := dataIdx_ok (hash := hash) (step := 3) (i := i) (by have := hps i (by simp); omega)
      simp only [List.length_cons] at hs
      simp only [List.cons_append, shortScan]
      rw [if_pos (by omega), hv, bind_ok, mod!_of_pos hi, bind_ok]
      split
      · exact ih _ (fun j hj => hps j (by simp [hj])) (by simp; omega)
      · exact ih _ (fun j hj => hps j (by simp [hj])) (by simp; omega)
  have := gen [0, 3, 6, 9, 12] ([], 0) (by decide) (by simpa using hc)
  exact this

theorem longModeRandom_large {H : Bytes → Bytes} (hH : ∀ x, (H x).length = 32)
    {num index count : Nat} (hnum : 65536 < num) (hi : 0 < index) (hc : 6 ≤ count) (data : Bytes) :
    longModeRandom H num data index count = .error .index := by
  unfold longModeRandom
  rw [if_neg (by omega)]
  obtain ⟨h', hh, hl⟩ := hash16_ok hH data
  simp only [stepOf_large hnum, hh, bind_ok, longScan_large hl hi hc, bind_error]

theorem shortDependRandom_large {H : Bytes → Bytes} (hH : ∀ x, (H x).length = 32)
    {num index count : Nat} (hnum : 65536 < num) (hc : 6 ≤ count) (data : Bytes) :
    shortDependRandom H num data index count = .error .index := by
  unfold shortDependRandom
  obtain ⟨h', hh, hl⟩ := hash16_ok hH data
  simp only [stepOf_large hnum, hh, bind_ok, shortScan_large hl (show 0 < num by omega) hc, bind_error]

/-! ### Static modes -/

theorem longMode1_eq (index count : Nat) :
    longMode1 index count =
      .ok (((List.range count).filter (fun i => decide (2 * i < index))).map (fun i => index - 1 - 2 * i)) := by
  unfold longMode1
  induction count with
  | zero => rfl
  | succ n ih =>
    rw [forUp_succ, ih, bind_ok]
    simp only [pure_eq_ok, List.range_succ, List.filter_append, List.map_append]
    by_cases h : 2 * n < index
    · rw [if_pos (by omega)]
      simp [h]; omega
    · rw [if_neg (by omega)]
      simp [h]

theorem longMode2_eq (index count : Nat) (hc : count ≤ 64) :
    longMode2 index count =
      .ok (((List.range count).filter (fun i => decide (2 ^ i < index))).map (fun i => index - 1 - 2 ^ i)) := by
  unfold longMode2
  induction count with
  | zero => rfl
  | succ n ih =>
    rw [forUp_succ, ih (by omega), bind_ok]
    have hp : pow2! n = .ok (2 ^ n) := by unfold pow2!; rw [if_pos (by omega)]
    simp only [hp, bind_ok, pure_eq_ok, List.range_succ, List.filter_append, List.map_append]
    by_cases h : 2 ^ n < index
    · rw [if_pos (by omega)]
      simp [h]; omega
    · rw [if_neg (by omega)]
      simp [h]

theorem longMode3_eq (index : Nat) : longMode3 index = longMode2 index (index / 10) := rfl

theorem longMode2_error (index count : Nat) (hc : 64 < count) :
    longMode2 index count = .error .overflow := by
  have h64 := longMode2_eq index 64 (by omega)
  unfold longMode2 at h64 ⊢
  refine forUp_error_of hc h64 ?_
  have : pow2! 64 = .error .overflow := rfl
  rw [this]; rfl

/-- One side-alternating pair of candidates at distance `1 + 2 * e`. -/
def pairAt (num index e : Nat) : List Nat :=
  (if 1 + 2 * e ≤ index then [index - (1 + 2 * e)] else []) ++
  (if index + (1 + 2 * e) < num then [index + (1 + 2 * e)] else [])

theorem pairAt_none {num index e e' : Nat} (h : index < 1 + 2 * e ∧ index + (1 + 2 * e) ≥ num) (he : e ≤ e') :
    pairAt num index e' = [] := by
  unfold pairAt
  rw [if_neg (by omega), if_neg (by omega)]; rfl

theorem flatMap_range_none {f : Nat → List Nat} {n e : Nat} (h : ∀ e', e ≤ e' → f e' = []) (hn : e ≤ n) :
    (List.range n).flatMap f = (List.range e).flatMap f := by
  obtain ⟨k, rfl⟩ : ∃ k, n = e + k := ⟨n - e, by omega⟩
  induction k with
  | zero => rfl
  | succ k ih =>
    rw [← Nat.add_assoc, List.range_succ, List.flatMap_append, ih (by omega)]
    simp [h (e + k) (by omega)]

theorem shortMode1Loop_eq (num index count fuel e : Nat) (acc : List Nat)
    (hacc : acc = ((List.range e).flatMap (pairAt num index)).take count)
    (hfull : acc.length < count → acc = (List.range e).flatMap (pairAt num index))
    (hf : num + index + 1 ≤ fuel + e) :
    shortMode1Loop num index count fuel e acc =
      ((List.range (num + index + 1)).flatMap (pairAt num index)).take count := by
  have hbig : ∀ e', num + index + 1 ≤ e' → pairAt num index e' = [] := by
    intro e' he'
    unfold pairAt
    rw [if_neg (by omega), if_neg (by omega)]; rfl
  have hall : ∀ n m, n ≤ m → ∃ r, (List.range m).flatMap (pairAt num index)
      = (List.range n).flatMap (pairAt num index) ++ r := by
    intro n m h
    obtain ⟨k, rfl⟩ : ∃ k, m = n + k := ⟨m - n, by omega⟩
    rw [List.range_add, List.flatMap_append]
    exact ⟨_, rfl⟩
  have hcut : count ≤ acc.length → acc = ((List.range (num + index + 1)).flatMap (pairAt num index)).take count := by
    intro hge
    rcases Nat.le_total e (num + index + 1) with h | h
    · obtain ⟨r, hr⟩ := hall _ _ h
      rw [hr, List.take_append_of_le_length, ← hacc]
      have : acc.length ≤ ((List.range e).flatMap (pairAt num index)).length := by
        rw [hacc]; simp
      omega
    · rw [hacc, flatMap_range_none hbig h]
  induction fuel generalizing e acc with
  | zero =>
    unfold shortMode1Loop
    rw [hacc, flatMap_range_none hbig (by omega)]
  | succ fuel ih =>
    unfold shortMode1Loop
    split
    · rename_i h; exact hcut h
    · rename_i hlt
      have hlt : acc.length < count := by omega
      have hF := hfull hlt
      have hstep : (List.range (e + 1)).flatMap (pairAt num index) = acc ++ pairAt num index e := by
        rw [List.range_succ, List.flatMap_append, ← hF]; simp
      simp only
      split
      · rename_i hnone
        have h0 : ∀ e', e ≤ e' → pairAt num index e' = [] := fun e' he' => pairAt_none hnone he'
        rw [hF]
        have : (List.range (num + index + 1)).flatMap (pairAt num index)
            = (List.range e).flatMap (pairAt num index) := by
          rcases Nat.le_total e (num + index + 1) with h | h
          · exact flatMap_range_none h0 h
          · exact (flatMap_range_none hbig h).symm
        rw [this, List.take_of_length_le]
        rw [← hF]; omega
      · -- the element below
        have hbelow : (if index ≥ 1 + 2 * e then acc ++ [index - (1 + 2 * e)] else acc)
            = acc ++ (if 1 + 2 * e ≤ index then [index - (1 + 2 * e)] else []) := by
          split <;> simp
        have habove : ∀ a : List Nat, (if index + (1 + 2 * e) < num then a ++ [index + (1 + 2 * e)] else a)
            = a ++ (if index + (1 + 2 * e) < num then [index + (1 + 2 * e)] else []) := by
          intro a; split <;> simp
        rw [hbelow]
        set b := (if 1 + 2 * e ≤ index then [index - (1 + 2 * e)] else []) with hb
        have hb1 : b.length ≤ 1 := by rw [hb]; split <;> simp
        set c := (if index + (1 + 2 * e) < num then [index + (1 + 2 * e)] else []) with hc
        have hc1 : c.length ≤ 1 := by rw [hc]; split <;> simp
        have hbc : pairAt num index e = b ++ c := rfl
        split
        · rename_i hge
          have hlen : (acc ++ b).length = count := by
            simp at hge ⊢; omega
          rcases Nat.le_total (e + 1) (num + index + 1) with h | h
          · obtain ⟨r, hr⟩ := hall _ _ h
            rw [hr, hstep, hbc, ← List.append_assoc, List.append_assoc, ← hlen, List.take_left]
          · rw [← flatMap_range_none hbig h, hstep, hbc, ← List.append_assoc, ← hlen, List.take_left]
        · rename_i hlt2
          rw [habove]
          have hlen2 : (acc ++ b ++ c).length ≤ count := by
            simp at hlt2 ⊢; omega
          have heq : acc ++ b ++ c = (List.range (e + 1)).flatMap (pairAt num index) := by
            rw [hstep, hbc, List.append_assoc]
          have htk : acc ++ b ++ c = ((List.range (e + 1)).flatMap (pairAt num index)).take count := by
            rw [← heq, List.take_of_length_le hlen2]
          refine ih (e + 1) (acc ++ b ++ c) htk (fun _ => heq) (by omega) ?_
          intro hge
          rcases Nat.le_total (e + 1) (num + index + 1) with h | h
          · obtain ⟨r, hr⟩ := hall _ _ h
            rw [hr, ← heq, List.take_append_of_le_length hge, List.take_of_length_le hlen2]
          · rw [← flatMap_range_none hbig h, ← heq, List.take_of_length_le hlen2]

theorem shortMode1_eq (num index count : Nat) :
    shortMode1 num index count =
      .ok (((List.range (num + index + 1)).flatMap (pairAt num index)).take count) := by
  unfold shortMode1
  rw [shortMode1Loop_eq num index count _ 0 [] (by simp) (by simp) (by omega)]

/-! ### Tables -/

theorem table_ok {f : Nat → R (List Nat)} {n : Nat} (h : ∀ i < n, ∃ l, f i = .ok l) :
    ∃ t, forUp n (fun idx acc => do
      let cur ← f idx
      pure (acc ++ [cur])) ([] : List (List Nat)) = .ok t := by
  obtain ⟨t, ht, -⟩ := forUp_total (n := n) (f := fun idx acc => do
      let cur ← f idx
      pure (acc ++ [cur])) (s := ([] : List (List Nat))) (fun _ _ => True) trivial
    (fun k hk s _ => by
      obtain ⟨l, hl⟩ := h k hk
      exact ⟨s ++ [l], by rw [hl]; rfl, trivial⟩)
  exact ⟨t, ht⟩

theorem table_spec {f : Nat → R (List Nat)} {n : Nat} {t : List (List Nat)}
    (h : forUp n (fun idx acc => do
      let cur ← f idx
      pure (acc ++ [cur])) ([] : List (List Nat)) = .ok t) :
    t.length = n ∧ ∀ i (hi : i < t.length), f i = .ok t[i] := by
  refine forUp_inv (fun k (s : List (List Nat)) => s.length = k ∧ ∀ i (hi : i < s.length), f i = .ok s[i])
    (by simp) ?_ h
  intro k hk s s' ⟨hl, hs⟩ hf
  rw [bind_eq_ok] at hf
  obtain ⟨cur, hcur, hf⟩ := hf
  cases hf
  refine ⟨by simp [hl], ?_⟩
  intro i hi
  rcases Nat.lt_or_ge i s.length with hlt | hge
  · rw [List.getElem_append_left hlt]; exact hs i hlt
  · have : i = k := by simp at hi; omega
    subst this
    rw [List.getElem_append_right hge]
    simpa [hl] using hcur

theorem table_error {f : Nat → R (List Nat)} {n k : Nat} {e : Panic} (hk : k < n) (hok : ∀ i < k, ∃ l, f i = .ok l)
    (he : f k = .error e) : forUp n (fun idx acc => do
      let cur ← f idx
      pure (acc ++ [cur])) ([] : List (List Nat)) = .error e := by
  obtain ⟨t, ht⟩ := table_ok hok
  refine forUp_error_of hk ht ?_
  rw [he]; rfl

end PoS
