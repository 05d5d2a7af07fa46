import Verif.Proofs.SealTotal
import Verif.Spec.Storage

/-
Properties of the dependency selection: C18-C23, C52.
-/

namespace PoS

/-! ### C18: long dependencies point backwards -/

/-- Hash-chosen lists: strictly increasing, below the index, at most `count`; nothing for
index 0. -/
theorem C18_long_random (H : Bytes → Bytes) (num index count : Nat) (data : Bytes) (l : List Nat)
    (h : longModeRandom H num data index count = .ok l) :
    l.Pairwise (· < ·) ∧ (∀ d ∈ l, d < index) ∧ l.length ≤ count ∧ (index = 0 → l = []) := by
  obtain ⟨h1, h2, h3, -⟩ := longModeRandom_spec h
  refine ⟨h1, h3, h2, ?_⟩
  rintro rfl
  cases l with
  | nil => rfl
  | cons a l => exact absurd (h3 a (by simp)) (by omega)

/-- Static lists of every mode: below the index; at most `count` entries (mode 3 uses
`index / 10` in place of the requested count); nothing for index 0. -/
theorem C18_long_static (index count mode : Nat) (l : List Nat)
    (h : longDepend index count mode = .ok l) :
    (∀ d ∈ l, d < index) ∧ (mode ≠ 3 → l.length ≤ count) ∧ (mode = 3 → l.length ≤ index / 10) ∧
      (index = 0 → l = []) := by
  have h2 : ∀ c, longMode2 index c = .ok l → l.length ≤ c := by
    intro c hc
    rcases Nat.lt_or_ge 64 c with h | h
    · rw [longMode2_error index c h] at hc; cases hc
    · rw [longMode2_eq index c h] at hc
      have := Except.ok.inj hc
      rw [← this, List.length_map]
      exact le_trans (List.length_filter_le _ _) (by simp)
  have hlt := longDepend_lt h
  refine ⟨hlt, ?_, ?_, ?_⟩
  · intro h3
    unfold longDepend at h
    split at h
    · rw [longMode1_eq] at h
      have := Except.ok.inj h
      rw [← this, List.length_map]
      exact le_trans (List.length_filter_le _ _) (by simp)
    · split at h
      · exact h2 _ h
      · cases h; simp
  · rintro rfl
    unfold longDepend at h
    rw [if_neg (by decide), if_neg (by decide), if_pos rfl, longMode3_eq] at h
    exact h2 _ h
  · rintro rfl
    cases l with
    | nil => rfl
    | cons a l => exact absurd (hlt a (by simp)) (by omega)

/-- When the hash-chosen long list exists. -/
theorem C18_long_random_total (H : Bytes → Bytes) (hH : ∀ x, (H x).length = 32) (num index count : Nat) (data : Bytes) :
    (∃ l, longModeRandom H num data index count = .ok l) ↔ num ≤ 65536 ∨ count ≤ 5 ∨ index = 0 := by
  constructor
  · rintro ⟨l, h⟩
    by_contra hcon
    rw [longModeRandom_large hH (by omega) (by omega) (by omega)] at h
    cases h
  · intro h
    rcases Nat.eq_zero_or_pos index with h0 | h0
    · exact ⟨[], by unfold longModeRandom; rw [if_pos h0]⟩
    · exact longModeRandom_some hH (by omega) data

example : longDepend 10 3 1 = .ok [9, 7, 5] ∧ longDepend 10 3 2 = .ok [8, 7, 5] ∧
    longDepend 25 0 3 = .ok [23, 22] := by decide

/-! ### C19: short dependencies -/

theorem pairAt_mem {num index e d : Nat} (h : d ∈ pairAt num index e) (hi : index < num) :
    d < num ∧ (index = d + (1 + 2 * e) ∨ d = index + (1 + 2 * e)) := by
  unfold pairAt at h
  rw [List.mem_append] at h
  rcases h with h | h
  · split at h
    · rw [List.mem_singleton] at h; omega
    · simp at h
  · split at h
    · rw [List.mem_singleton] at h; omega
    · simp at h

theorem pairs_nodup (num index n : Nat) : ((List.range n).flatMap (pairAt num index)).Nodup := by
  rw [List.nodup_flatMap]
  constructor
  · intro e _
    unfold pairAt
    split <;> split <;> simp
    omega
  · refine List.Pairwise.imp_of_mem ?_ List.nodup_range
    intro a b _ _ hab
    rw [Function.onFun, List.disjoint_left]
    intro d hd hd'
    have key : ∀ e, d ∈ pairAt num index e → index = d + (1 + 2 * e) ∨ d = index + (1 + 2 * e) := by
      intro e h
      unfold pairAt at h
      rw [List.mem_append] at h
      rcases h with h | h
      · split at h
        · rw [List.mem_singleton] at h; omega
        · simp at h
      · split at h
        · rw [List.mem_singleton] at h; omega
        · simp at h
    have h1 := key a hd
    have h2 := key b hd'
    omega

/-- Hash-chosen short lists. -/
theorem C19_short_random (H : Bytes → Bytes) (num index count : Nat) (data : Bytes) (l : List Nat)
    (h : shortDependRandom H num data index count = .ok l) :
    l.Pairwise (· < ·) ∧ (∀ d ∈ l, d ≠ index ∧ d < num) ∧ l.length ≤ count := by
  obtain ⟨h1, h2, h3, -⟩ := shortDependRandom_spec h
  exact ⟨h1, h3, h2⟩

theorem shortMode2_spec {num index count : Nat} {l : List Nat} (h : shortMode2 num index count = .ok l) :
    l = [] ∨ (l = [index - 2] ∧ 2 ≤ index ∧ index - 2 < num ∧ 1 ≤ count) := by
  unfold shortMode2 at h
  rw [bind_eq_ok] at h
  obtain ⟨s, hs, h⟩ := h
  cases h
  have := forUp_inv (fun k (s : List Nat × Bool × Bool) =>
    (s.1 = [] ∨ (s.1 = [index - 2] ∧ 2 ≤ index ∧ index - 2 < num ∧ 1 ≤ k)) ∧
      (s.2.2 = false → k = 0 → s.2.1 = false ∧ s.1 = [])) ?_ ?_ hs
  · exact this.1
  · exact ⟨Or.inl rfl, fun _ _ => ⟨rfl, rfl⟩⟩
  · rintro k hk ⟨a, b, c⟩ s' ⟨hP, hQ⟩ hf
    refine ⟨?_, fun _ h => absurd h (by omega)⟩
    simp only at hf hP hQ
    cases c with
    | true =>
      rw [if_pos rfl] at hf
      cases hf
      rcases hP with h | ⟨h1, h2, h3, h4⟩
      · exact Or.inl h
      · exact Or.inr ⟨h1, h2, h3, by omega⟩
    | false =>
      rw [if_neg (by decide)] at hf
      rw [bind_eq_ok] at hf
      obtain ⟨pw, hpw, hf⟩ := hf
      have hpw' : pw = 2 ^ k := by
        unfold pow2! at hpw
        split at hpw <;> cases hpw; rfl
      rw [bind_eq_ok] at hf
      obtain ⟨d1, hd1, hf⟩ := hf
      have hk0 : k = 0 := by
        by_contra hne
        have : 1 < 2 ^ k := Nat.one_lt_two_pow hne
        rw [sub!_of_lt (by omega)] at hd1
        cases hd1
      subst hk0
      obtain ⟨hb, ha⟩ := hQ rfl rfl
      subst hb ha
      have e1 : pow2! 0 = .ok 1 := rfl
      rw [e1, bind_ok] at hf
      simp only [Bool.false_eq_true, if_false] at hf
      rw [bind_eq_ok] at hf
      obtain ⟨idx, hidx, hf⟩ := hf
      have hi2 : 2 ≤ index ∧ idx = index - 2 := by
        rcases Nat.lt_or_ge index 2 with h | h
        · rw [sub!_of_lt (by omega)] at hidx; cases hidx
        · rw [sub!_of_le (by omega)] at hidx; cases hidx; exact ⟨h, rfl⟩
      split at hf
      · cases hf; exact Or.inl rfl
      · cases hf; exact Or.inr ⟨by simp [hi2.2], hi2.1, by omega, by omega⟩

/-- Static short lists of every mode: in range, different from the unit itself, no
duplicates, at most `count`. -/
theorem C19_short_static (num index count mode : Nat) (hi : index < num) (l : List Nat)
    (h : shortDepend num index count mode = .ok l) :
    (∀ d ∈ l, d ≠ index ∧ d < num) ∧ l.Nodup ∧ l.length ≤ count := by
  unfold shortDepend at h
  split at h
  · rw [shortMode1_eq] at h
    have := Except.ok.inj h
    subst this
    refine ⟨?_, (List.take_sublist _ _).nodup (pairs_nodup num index _), by simp⟩
    intro d hd
    have := List.mem_of_mem_take hd
    rw [List.mem_flatMap] at this
    obtain ⟨e, -, he⟩ := this
    have := pairAt_mem he hi
    omega
  · split at h
    · rcases shortMode2_spec h with rfl | ⟨rfl, h1, h2, h3⟩
      · simp
      · refine ⟨?_, by simp, by simpa using h3⟩
        intro d hd
        rw [List.mem_singleton] at hd
        omega
    · cases h; simp

example : shortDepend 10 4 5 1 = .ok [3, 5, 1, 7, 9] ∧ shortDepend 10 4 1 2 = .ok [2] := by decide

/-! ### C20: long mode 3 -/

/-- Mode 3 works for at most 650 blocks and overflows for every larger number. -/
theorem C20_long_mode_3 (num count : Nat) :
    (num ≤ 650 → ∃ t, createLongDepend num count 3 = .ok t) ∧
    (650 < num → createLongDepend num count 3 = .error .overflow) := by
  have hok : ∀ i < 650, ∃ l, longDepend i count 3 = .ok l := by
    intro i hi
    exact ⟨_, by
      unfold longDepend
      rw [if_neg (by decide), if_neg (by decide), if_pos rfl, longMode3_eq]
      exact longMode2_eq i (i / 10) (by omega)⟩
  constructor
  · intro h
    exact table_ok (fun i hi => hok i (by omega))
  · intro h
    refine table_error (k := 650) h (fun i hi => hok i hi) ?_
    unfold longDepend
    rw [if_neg (by decide), if_neg (by decide), if_pos rfl, longMode3_eq]
    exact longMode2_error 650 (650 / 10) (by decide)

/-- Both sides of the boundary are met by block counts one might use. -/
example : (512 : Nat) ≤ 650 ∧ 650 < 1024 := by decide

/-! ### C21: short mode 2 -/

/-- Mode 2 panics for every positive number of units and dependencies. -/
theorem C21_short_mode_2 (num count : Nat) (hn : 0 < num) (hc : 0 < count) :
    createShortDepend num count 2 = .error .overflow := by
  refine table_error (k := 0) hn (fun i hi => absurd hi (by omega)) ?_
  unfold shortDepend
  rw [if_neg (by decide), if_pos rfl]
  unfold shortMode2
  rw [forUp_error_of (k := 0) (t := ([], false, false)) (e := .overflow) hc rfl (by rfl)]
  rfl

example : createShortDepend 0 5 2 = .ok [] ∧ createShortDepend 3 0 2 = .ok [[], [], []] := by decide

/-! ### C22: more than 65536 positions -/

/-- The selection functions panic for every hash. -/
theorem C22_selection_panics (H : Bytes → Bytes) (hH : ∀ x, (H x).length = 32) (num index count : Nat)
    (hnum : 65536 < num) (hc : 6 ≤ count) (data : Bytes) :
    (0 < index → longModeRandom H num data index count = .error .index) ∧
    shortDependRandom H num data index count = .error .index :=
  ⟨fun hi => longModeRandom_large hH hnum hi hc data, shortDependRandom_large hH hnum hc data⟩

theorem sealBlock_large {H : Bytes → Bytes} (hH : ∀ x, (H x).length = 32) {params : PosPara} {key : Int}
    {iv : Bytes} {n : Nat} {idxsL idxsS : List (List Nat)} {k : Nat} {s s' : SealState}
    (hL : params.modeL = 0) (hn : 65536 < n) (hk : 0 < k)
    (hcnt : 6 ≤ (if params.cntL = 0 then k / 10 + 1 else params.cntL)) :
    sealBlock H params key iv n idxsL idxsS k s ≠ .ok s' := by
  intro h
  unfold sealBlock at h
  simp only [bind_eq_ok] at h
  obtain ⟨cur, -, deps, hd, -⟩ := h
  unfold sealDependBlocks at hd
  rw [if_pos hL] at hd
  simp only [bind_eq_ok] at hd
  obtain ⟨l, hl, -⟩ := hd
  rw [if_neg (by omega), bind_eq_ok] at hl
  obtain ⟨b, -, hl⟩ := hl
  split at hl
  · next h0 =>
    rw [if_pos h0] at hcnt
    rw [longModeRandom_large hH hn hk hcnt] at hl
    cases hl
  · next h0 =>
    rw [if_neg h0] at hcnt
    rw [longModeRandom_large hH hn hk hcnt] at hl
    cases hl

/-- Sealing more than 65536 blocks with hash-chosen long dependencies and the default
count (`cnt_l = 0`), or any fixed count of at least six, never succeeds. -/
theorem C22_sealing_panics (H : Bytes → Bytes) (hH : ∀ x, (H x).length = 32) (params : PosPara)
    (file : Bytes) (key : Int) (iv : Bytes) (hL : params.modeL = 0)
    (hcnt : params.cntL = 0 ∨ 6 ≤ params.cntL) (hn : 65536 < params.dataL / params.blockL) :
    ∃ e, sealFile H params file key iv = .error e := by
  cases hrun : sealFile H params file key iv with
  | error e => exact ⟨e, rfl⟩
  | ok st =>
    exfalso
    unfold sealFile sealPrefix at hrun
    simp only [bind_eq_ok] at hrun
    obtain ⟨n, hdiv, m, hdiv', idxsL, -, idxsS, -, hloop⟩ := hrun
    rw [hdiv] at hdiv'
    cases hdiv'
    have hnn : n = params.dataL / params.blockL := by
      unfold div! at hdiv
      split at hdiv <;> cases hdiv
      rfl
    obtain ⟨r, hr⟩ : ∃ r, n = 51 + r := ⟨n - 51, by omega⟩
    have hn' : 65536 < n := by omega
    rw [hr, forUp_add, bind_eq_ok] at hloop
    obtain ⟨s51, h51, -⟩ := hloop
    rw [forUp_succ, bind_eq_ok] at h51
    obtain ⟨s50, -, h50⟩ := h51
    rw [← hr] at h50
    refine sealBlock_large hH hL hn' (by decide) ?_ h50
    rcases hcnt with h | h
    · rw [if_pos h]
    · rw [if_neg (by omega)]; exact h

/-- No block of more than 65536 units can be sealed with six or more hash-chosen short dependencies. -/
theorem sealBlock_large_short {H : Bytes → Bytes} (hH : ∀ x, (H x).length = 32) {params : PosPara} {key : Int}
    {iv : Bytes} {n : Nat} {idxsL idxsS : List (List Nat)} {k : Nat} {s s' : SealState}
    (hS : params.modeS = 0) (hcnt : 6 ≤ params.cntS) {c : Nat} (hc : 65536 < c) (hu : 0 < params.unitPl)
    (hb : params.blockPl = c * params.unitPl) (hr : 0 < params.sealRounds) :
    sealBlock H params key iv n idxsL idxsS k s ≠ .ok s' := by
  intro h0
  unfold sealBlock at h0
  simp only [bind_eq_ok] at h0
  obtain ⟨cur, hcur, deps, -, w, hw, -⟩ := h0
  obtain ⟨us, u1, u2, -, -⟩ := toUnits_ok (readFile s.file (k * params.blockPl) params.blockPl) params.unitPl c hu
    (by rw [readFile_length, hb])
  rw [hcur] at u1
  cases u1
  unfold sealRoundsLoop at hw
  obtain ⟨r2, hr2⟩ : ∃ r, params.sealRounds = 1 + r := ⟨params.sealRounds - 1, by omega⟩
  rw [hr2, forUp_add, bind_eq_ok] at hw
  obtain ⟨w1, hw1, -⟩ := hw
  rw [forUp_succ, bind_eq_ok] at hw1
  obtain ⟨w0, -, hw0⟩ := hw1
  obtain ⟨r3, hr3⟩ : ∃ r, cur.length = 1 + r := ⟨cur.length - 1, by omega⟩
  have hl : 65536 < cur.length := by omega
  generalize cur.length = len at *
  rw [show forUp len = forUp (1 + r3) by rw [hr3], forUp_add, bind_eq_ok] at hw0
  obtain ⟨v1, hv1, -⟩ := hw0
  rw [forUp_succ, bind_eq_ok] at hv1
  obtain ⟨v0, -, hv0⟩ := hv1
  unfold sealUnit sealDependData at hv0
  simp only [bind_eq_ok] at hv0
  obtain ⟨d, ⟨res, -, hd⟩, -⟩ := hv0
  rw [if_neg (by simp [hS])] at hd
  simp only [if_true, bind_eq_ok] at hd
  obtain ⟨ans, ha, -⟩ := hd
  rw [(C22_selection_panics H hH len 0 params.cntS hl hcnt []).2] at ha
  cases ha

/-- Sealing with hash-chosen short dependencies and more than 65536 units per block never succeeds
either, as soon as six are requested. -/
theorem C22_sealing_large_blocks (H : Bytes → Bytes) (hH : ∀ x, (H x).length = 32) (params : PosPara)
    (file : Bytes) (key : Int) (iv : Bytes) (hS : params.modeS = 0) (hcnt : 6 ≤ params.cntS)
    (c : Nat) (hc : 65536 < c) (hu : 0 < params.unitPl) (hb : params.blockPl = c * params.unitPl)
    (hr : 0 < params.sealRounds) (hn : 0 < params.dataL / params.blockL) :
    ∃ e, sealFile H params file key iv = .error e := by
  cases hrun : sealFile H params file key iv with
  | error e => exact ⟨e, rfl⟩
  | ok st =>
    exfalso
    unfold sealFile sealPrefix at hrun
    simp only [bind_eq_ok] at hrun
    obtain ⟨n, hdiv, m, hdiv', idxsL, -, idxsS, -, hloop⟩ := hrun
    have hnn : n = params.dataL / params.blockL := by
      unfold div! at hdiv
      split at hdiv <;> cases hdiv
      rfl
    obtain ⟨r, hr'⟩ : ∃ r, n = 1 + r := ⟨n - 1, by omega⟩
    rw [hr', forUp_add, bind_eq_ok] at hloop
    obtain ⟨s1, h1, -⟩ := hloop
    rw [forUp_succ, bind_eq_ok] at h1
    obtain ⟨s0, -, h0⟩ := h1
    exact sealBlock_large_short hH hS hcnt hc hu hb hr h0

/-- Short dependencies with at most five requested: the outcome depends on the hash values.  The list
exists exactly if enough of the five numbers read differ from the unit itself; a unit outside 768..1533
is never hit, so there the call never panics. -/
theorem C22_short_few (H : Bytes → Bytes) (hH : ∀ x, (H x).length = 32) (num index count : Nat)
    (hnum : 65536 < num) (hc : count ≤ 5) (data : Bytes) :
    (shortDependRandom H num data index count = .error .index ∨
      ∃ l, shortDependRandom H num data index count = .ok l) ∧
    ((∃ l, shortDependRandom H num data index count = .ok l) ↔
      count ≤ ((List.range 5).filter (fun i => decide (drawn H data num i ≠ index))).length) ∧
    (index < 768 ∨ 1533 < index → ∃ l, shortDependRandom H num data index count = .ok l) := by
  have hd : ∀ i, 768 ≤ drawn H data num i ∧ drawn H data num i ≤ 1533 := by
    intro i
    unfold drawn
    rw [if_neg (by omega), if_neg (by omega)]
    have hb : ∀ j, streamByte H data j ≤ 255 := fun j => by
      unfold streamByte
      have := (((prefixChain H data (j / 16)).getD (j % 16) 0)).toNat_lt
      omega
    have h1 := hb (3 * i)
    have h2 := hb (3 * i + 1)
    have h3 := hb (3 * i + 2)
    omega
  have hm : ((List.range 5).map (fun i => drawn H data num i % num)).filter (fun d => decide (d ≠ index)) =
      ((List.range 5).filter (fun i => decide (drawn H data num i ≠ index))).map (fun i => drawn H data num i) := by
    rw [List.filter_map]
    have he : ∀ i, drawn H data num i % num = drawn H data num i := fun i => Nat.mod_eq_of_lt (by have := hd i; omega)
    simp only [he, Function.comp_def]
  have key := shortDependRandom_few (index := index) hH hnum hc data
  rw [hm, List.length_map] at key
  have h2 : (∃ l, shortDependRandom H num data index count = .ok l) ↔
      count ≤ ((List.range 5).filter (fun i => decide (drawn H data num i ≠ index))).length := by
    rw [key]
    split
    · rename_i h
      exact ⟨fun _ => h, fun _ => ⟨_, rfl⟩⟩
    · rename_i h
      exact ⟨fun ⟨l, hl⟩ => (by cases hl), fun h' => absurd h' h⟩
  refine ⟨?_, h2, fun hi => h2.mpr ?_⟩
  · rw [key]
    split
    · exact Or.inr ⟨_, rfl⟩
    · exact Or.inl rfl
  · rw [List.filter_eq_self.mpr (fun i _ => by have := hd i; simp; omega), List.length_range]
    exact hc

/-- Both cases occur: all bytes are 200, so every number read is 1368. -/
example : shortDependRandom (fun _ => List.replicate 32 200) 70000 [] 3 5 = .ok [1368] ∧
    shortDependRandom (fun _ => List.replicate 32 200) 70000 [] 1368 1 = .error .index ∧
    longModeRandom (fun _ => List.replicate 32 200) 70000 [] 1500 5 = .ok [1368] := by decide

/-- Ten positions among 70000. -/
example : shortDependRandom (fun _ => List.replicate 32 200) 70000 [] 3 10 = .error .index ∧
    longModeRandom (fun _ => List.replicate 32 200) 70000 [] 60 7 = .error .index := by decide

/-! ### C23: the reachable window -/

/-- With 257 to 65536 positions a hash-chosen dependency is the residue of a number
between 256 and 766. -/
theorem C23_window (H : Bytes → Bytes) (num index count : Nat) (data : Bytes) (l : List Nat)
    (h1 : 256 < num) (h2 : num ≤ 65536) :
    (longModeRandom H num data index count = .ok l →
      ∀ d ∈ l, (∃ v, 256 ≤ v ∧ v ≤ 766 ∧ d = v % index) ∧ (766 < index → 256 ≤ d ∧ d ≤ 766)) ∧
    (shortDependRandom H num data index count = .ok l →
      ∀ d ∈ l, (∃ v, 256 ≤ v ∧ v ≤ 766 ∧ d = v % num) ∧ (766 < num → 256 ≤ d ∧ d ≤ 766)) := by
  have hstep : stepOf num = 2 := by
    unfold stepOf
    rw [if_neg (by omega), if_pos (by omega)]
  have key : ∀ m d : Nat, (∃ v, InWindow (stepOf num) v ∧ d = v % m) →
      (∃ v, 256 ≤ v ∧ v ≤ 766 ∧ d = v % m) ∧ (766 < m → 256 ≤ d ∧ d ≤ 766) := by
    rintro m d ⟨v, hv, rfl⟩
    rw [hstep] at hv
    obtain ⟨ha, hb⟩ := hv
    have ha' : 256 ≤ v := by simpa using ha
    have hb' : v ≤ 766 := by simpa using hb
    refine ⟨⟨v, ha', hb', rfl⟩, fun hm => ?_⟩
    rw [Nat.mod_eq_of_lt (by omega)]
    exact ⟨ha', hb'⟩
  constructor
  · intro h d hd
    exact key _ _ ((longModeRandom_spec h).2.2.2 d hd)
  · intro h d hd
    exact key _ _ ((shortDependRandom_spec h).2.2.2 d hd)

/-- With more than 65536 positions, as far as the lists exist, the window is 768 to 1533. -/
theorem C23_window_large (H : Bytes → Bytes) (num index count : Nat) (data : Bytes) (l : List Nat)
    (h1 : 65536 < num) :
    (longModeRandom H num data index count = .ok l →
      ∀ d ∈ l, (∃ v, 768 ≤ v ∧ v ≤ 1533 ∧ d = v % index) ∧ (1533 < index → 768 ≤ d ∧ d ≤ 1533)) ∧
    (shortDependRandom H num data index count = .ok l → ∀ d ∈ l, 768 ≤ d ∧ d ≤ 1533) := by
  have key : ∀ m d : Nat, (∃ v, InWindow (stepOf num) v ∧ d = v % m) →
      (∃ v, 768 ≤ v ∧ v ≤ 1533 ∧ d = v % m) ∧ (1533 < m → 768 ≤ d ∧ d ≤ 1533) := by
    rintro m d ⟨v, hv, rfl⟩
    rw [stepOf_large h1] at hv
    obtain ⟨ha, hb⟩ := hv
    have ha' : 768 ≤ v := by simpa using ha
    have hb' : v ≤ 1533 := by simpa using hb
    refine ⟨⟨v, ha', hb', rfl⟩, fun hm => ?_⟩
    rw [Nat.mod_eq_of_lt (by omega)]
    exact ⟨ha', hb'⟩
  constructor
  · intro h d hd
    exact key _ _ ((longModeRandom_spec h).2.2.2 d hd)
  · intro h d hd
    exact (key _ _ ((shortDependRandom_spec h).2.2.2 d hd)).2 (by omega)

/-- In particular at most 511 of the positions can ever be dependencies. -/
theorem C23_unreachable (H : Bytes → Bytes) (num index count : Nat) (data : Bytes) (l : List Nat)
    (h1 : 766 < num) (h2 : num ≤ 65536) (h : shortDependRandom H num data index count = .ok l)
    (d : Nat) (hd : d < 256 ∨ 766 < d) : d ∉ l := by
  intro hm
  have := ((C23_window H num index count data l (by omega) h2).2 h d hm).2 h1
  omega

example : ∃ l, shortDependRandom (fun _ => List.replicate 32 200) 1000 [] 3 10 = .ok l ∧ 656 ∈ l :=
  ⟨[656], by decide +kernel, by decide⟩

/-! ### C52: shapes of the static lists -/

/-- `long_mode_1`: the positions at odd distances `1, 3, 5, ...` behind the index. -/
theorem C52_long_mode_1 (index count : Nat) :
    ∃ l, longMode1 index count = .ok l ∧ l.length = min count ((index + 1) / 2) ∧
      ∀ i (h : i < l.length), l[i] + (1 + 2 * i) = index := by
  have hf : ∀ c, (List.range c).filter (fun i => decide (2 * i < index)) =
      List.range (min c ((index + 1) / 2)) := by
    intro c
    induction c with
    | zero => simp
    | succ c ih =>
      rw [List.range_succ, List.filter_append, ih]
      by_cases h : 2 * c < index
      · simp only [List.filter_cons, h, decide_true, if_true, List.filter_nil]
        rw [show min (c + 1) ((index + 1) / 2) = min c ((index + 1) / 2) + 1 by omega, List.range_succ,
          show min c ((index + 1) / 2) = c by omega]
      · simp only [List.filter_cons, h, decide_false, List.filter_nil]
        rw [show min (c + 1) ((index + 1) / 2) = min c ((index + 1) / 2) by omega]
        simp
  refine ⟨_, longMode1_eq index count, ?_, ?_⟩
  · rw [hf]; simp
  · intro i hi
    simp only [hf] at hi ⊢
    simp only [List.getElem_map, List.getElem_range]
    simp at hi
    omega

/-- `long_mode_2`: the positions at distances `1 + 2^i` behind the index, for `count` up
to 64 (it overflows above). -/
theorem C52_long_mode_2 (index count : Nat) :
    (count ≤ 64 → ∃ l, longMode2 index count = .ok l ∧
      (∀ i (h : i < l.length), l[i] + (1 + 2 ^ i) = index) ∧
      ∀ i, i < l.length ↔ i < count ∧ 2 ^ i < index) ∧
    (64 < count → longMode2 index count = .error .overflow) := by
  refine ⟨fun hc => ?_, fun hc => longMode2_error index count hc⟩
  have hf : ∀ c, ∃ m ≤ c, (List.range c).filter (fun i => decide (2 ^ i < index)) = List.range m ∧
      ∀ i, i < m ↔ i < c ∧ 2 ^ i < index := by
    intro c
    induction c with
    | zero => exact ⟨0, Nat.le_refl _, rfl, by simp⟩
    | succ c ih =>
      obtain ⟨m, hm, he, hi⟩ := ih
      rw [List.range_succ, List.filter_append, he]
      by_cases h : 2 ^ c < index
      · have hmc : m = c := by
          by_contra hne
          have h1 : ¬ (m < m) := by omega
          rw [hi] at h1
          apply h1
          exact ⟨by omega, lt_of_le_of_lt (Nat.pow_le_pow_right (by decide) hm) h⟩
        subst hmc
        refine ⟨m + 1, Nat.le_refl _, ?_, ?_⟩
        · simp [h, List.range_succ]
        · intro i
          constructor
          · intro hlt
            exact ⟨hlt, lt_of_le_of_lt (Nat.pow_le_pow_right (by decide) (by omega : i ≤ m)) h⟩
          · exact fun h => h.1
      · refine ⟨m, by omega, ?_, ?_⟩
        · simp [h]
        · intro i
          rw [hi]
          constructor
          · rintro ⟨h1, h2⟩; exact ⟨by omega, h2⟩
          · rintro ⟨h1, h2⟩
            refine ⟨?_, h2⟩
            by_contra hne
            have : i = c := by omega
            subst this
            exact h h2
  obtain ⟨m, hm, he, hi⟩ := hf count
  refine ⟨_, longMode2_eq index count hc, ?_, ?_⟩
  · intro i hlt
    simp only [he] at hlt ⊢
    simp only [List.getElem_map, List.getElem_range]
    simp at hlt
    have := ((hi i).mp hlt).2
    omega
  · intro i
    rw [he]
    simp only [List.length_map, List.length_range]
    exact hi i

/-- `short_mode_1`: the positions at odd distances, nearest first, the lower one before
the upper one, cut after `count`; all positions at odd distance when `count` allows. -/
theorem C52_short_mode_1 (num index count : Nat) (hi : index < num) :
    ∃ all : List Nat, shortMode1 num index count = .ok (all.take count) ∧ all.Nodup ∧
      (∀ d, d ∈ all ↔ d < num ∧ (d + index) % 2 = 1) ∧
      all.Pairwise (fun a b => (if a ≤ index then index - a else a - index) <
          (if b ≤ index then index - b else b - index) ∨
        ((if a ≤ index then index - a else a - index) = (if b ≤ index then index - b else b - index) ∧ a < b)) := by
  refine ⟨_, shortMode1_eq num index count, pairs_nodup num index _, ?_, ?_⟩
  · intro d
    rw [List.mem_flatMap]
    constructor
    · rintro ⟨e, -, he⟩
      have := pairAt_mem he hi
      omega
    · rintro ⟨h1, h2⟩
      rcases Nat.lt_or_ge d index with hd | hd
      · refine ⟨(index - d) / 2, by simp; omega, ?_⟩
        unfold pairAt
        rw [List.mem_append]; left
        rw [if_pos (by omega), List.mem_singleton]; omega
      · refine ⟨(d - index) / 2, by simp; omega, ?_⟩
        unfold pairAt
        rw [List.mem_append]; right
        rw [if_pos (by omega), List.mem_singleton]; omega
  · rw [List.pairwise_flatMap]
    constructor
    · intro e _
      unfold pairAt
      have : ¬ (index + (1 + 2 * e) ≤ index) := by omega
      split <;> split <;> simp [this]
      omega
    · refine List.Pairwise.imp_of_mem ?_ List.pairwise_lt_range
      intro e e' _ _ hlt a ha b hb
      have h1 := pairAt_mem ha hi
      have h2 := pairAt_mem hb hi
      left
      split <;> split <;> omega

end PoS
