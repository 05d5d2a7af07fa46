import Verif.Proofs.Challenge
import Verif.Proofs.Primes
import Verif.Properties.Storage
import Verif.Model.Parallel

/-
Properties of the verifier side: C03, C24, C25, C26, C27, C28, C53, C58.
-/

namespace PoS

/-! ### C03: random access -/

/-- Preparing any list of blocks (any order, repetitions allowed) of a sealed file one by
one and unsealing them together returns exactly their plaintext, for every long and short
dependency mode in which sealing succeeded. -/
theorem C03_random_access (H : Bytes → Bytes) (hH : ∀ x, (H x).length = 32) (params : PosPara)
    (p n c : Nat) (cfg : Config params p n c) (hr : 0 < params.sealRounds) (file iv : Bytes)
    (hlen : n * params.blockPl ≤ file.length) (hu : UnitsBelow params p n c file) (st : SealState)
    (hseal : sealFile H params file (p : Int) iv = .ok st) (hlog : ∀ v ∈ st.log, v ≠ 0)
    (idxs : List Nat) (hne : idxs ≠ []) (hidx : ∀ k ∈ idxs, k < n) :
    ∃ pr : Nat → Prepared, ∃ outs,
      (∀ k ∈ idxs, singleUnsealPrepare H params st.file k = .ok (pr k)) ∧
      batchUnseal H params idxs (idxs.map (fun k => (pr k).block)) (idxs.map (fun k => (pr k).beforeId))
        (idxs.map (fun k => (pr k).dependBlocks)) (p : Int) iv = .ok outs ∧
      outs.length = idxs.length ∧
      ∀ (i : Nat) (k : Nat) (out : List Bytes), idxs[i]? = some k → outs[i]? = some out →
        out.flatten = readFile file (k * params.blockPl) params.blockPl ∧ out.length = c ∧
        ∀ u ∈ out, u.length = params.unitPl := by
  have hex : ∀ k, ∃ pr us, k < n → ∃ T, idxsSOf params c = .ok T ∧
      singleUnsealPrepare H params st.file k = .ok pr ∧ pr.block.length = c ∧
      us.flatten = readFile file (k * params.blockPl) params.blockPl ∧ us.length = c ∧
      (∀ u ∈ us, u.length = params.unitPl) ∧
      unsealRoundsLoop H params (p : Int) iv T pr.beforeId pr.dependBlocks c k pr.block = .ok us := by
    intro k
    by_cases hk : k < n
    · obtain ⟨S, T, pr, us, h1, h2, h3, h4, -, h5, h6, h7, -, h8, h9⟩ :=
        sealed_block hH cfg hr hlen hu hseal hlog hk
      refine ⟨pr, us, fun _ => ⟨T, h2, h3, h4, h6, h7, ?_, h9⟩⟩
      obtain ⟨w, hw1, -, hw2, -⟩ := blockOf_units cfg.layout file k
      unfold blockOf at hw1
      rw [h5] at hw1
      cases hw1
      exact hw2
    · exact ⟨⟨[], [], []⟩, [], fun h => absurd h hk⟩
  choose pr us h using hex
  refine ⟨pr, idxs.map us, fun k hk => ?_, ?_, by simp, ?_⟩
  · obtain ⟨T, -, h2, -⟩ := h k (hidx k hk)
    exact h2
  · cases idxs with
    | nil => exact absurd rfl hne
    | cons a l =>
      obtain ⟨T, hT, -⟩ := h a (hidx a (by simp))
      have hT' : batchIdxsS params = .ok T := by rw [batchIdxsS_eq cfg]; exact hT
      refine batchUnseal_eq hT' (by simp) (by simp) (by simp) (by simp) ?_
      intro i hi
      simp only [List.getElem_map]
      obtain ⟨T', hT'', -, h3, -, -, -, h4⟩ := h ((a :: l)[i]) (hidx _ (List.getElem_mem hi))
      rw [hT] at hT''
      cases hT''
      rw [h3]
      exact h4
  · intro i k out hi ho
    rw [List.getElem?_map, hi] at ho
    cases ho
    have hk : k ∈ idxs := List.mem_of_getElem? hi
    obtain ⟨T, -, -, -, h5, h6, h7, -⟩ := h k (hidx k hk)
    exact ⟨h5, h6, h7⟩

/-- A sealed file on which preparing and unsealing blocks 2, 0, 2 runs and returns plaintext. -/
example : (match copyAndPad (toyFile 378) 378 63 with
    | .ok padded => (match sealFile toyHash (toyParams 3 2 0 0 0 10 2) padded P_512 [1, 2, 3] with
      | .ok st => (match singleUnsealPrepare toyHash (toyParams 3 2 0 0 0 10 2) st.file 2,
          singleUnsealPrepare toyHash (toyParams 3 2 0 0 0 10 2) st.file 0 with
        | .ok a, .ok b => (match batchUnseal toyHash (toyParams 3 2 0 0 0 10 2) [2, 0, 2]
            [a.block, b.block, a.block] [a.beforeId, b.beforeId, a.beforeId]
            [a.dependBlocks, b.dependBlocks, a.dependBlocks] P_512 [1, 2, 3] with
          | .ok outs => decide (outs.map List.flatten = [readFile padded 256 128, readFile padded 0 128,
              readFile padded 256 128] ∧ (∀ v ∈ st.log, v ≠ 0) ∧ st.file ≠ padded ∧ a.dependBlocks ≠ [])
          | .error _ => false)
        | _, _ => false)
      | .error _ => false)
    | .error _ => false) = true := by decide +kernel

/-- The same for a byte range: `batch_unseal_prepare` followed by `batch_unseal` returns the
plaintext of exactly the selected blocks. -/
theorem C03_byte_range (H : Bytes → Bytes) (hH : ∀ x, (H x).length = 32) (params : PosPara)
    (p n c : Nat) (cfg : Config params p n c) (hr : 0 < params.sealRounds) (file iv : Bytes)
    (hlen : n * params.blockPl ≤ file.length) (hu : UnitsBelow params p n c file) (st : SealState)
    (hseal : sealFile H params file (p : Int) iv = .ok st) (hlog : ∀ v ∈ st.log, v ≠ 0)
    (a b : Nat) (hab : a < b) (hb : b ≤ n * params.blockPl) :
    ∃ bp outs, batchUnsealPrepare H params st.file a b = .ok bp ∧
      batchUnseal H params bp.blocksIdx bp.blocks bp.beforeIds bp.dependBlocks (p : Int) iv = .ok outs ∧
      outs.length = bp.blocksIdx.length ∧ bp.blocksIdx ≠ [] ∧
      ∀ (i k : Nat) (out : List Bytes), bp.blocksIdx[i]? = some k → outs[i]? = some out →
        out.flatten = readFile file (k * params.blockPl) params.blockPl := by
  have hbpl : 0 < params.blockPl := by
    rw [cfg.block_pl, cfg.unit_pl]; exact Nat.mul_pos cfg.c_pos (by omega)
  have hI := blocksIdxOf_eq (bpl := params.blockPl) (a := a) (b := b) hbpl
  set idxs := (List.range ((b - a + params.blockPl - 1) / params.blockPl)).map (fun j => j + a / params.blockPl)
    with hdef
  have hpos : 0 < (b - a + params.blockPl - 1) / params.blockPl := (lt_ceil_iff hbpl 0).mp (by omega)
  have hne : idxs ≠ [] := by
    rw [hdef]
    intro h
    rw [List.map_eq_nil_iff, List.range_eq_nil] at h
    omega
  have hall : ∀ k ∈ idxs, k < n := by
    intro k hk
    rw [hdef, List.mem_map] at hk
    obtain ⟨j, hj, rfl⟩ := hk
    have hj' := (lt_ceil_iff (a := a) (b := b) hbpl j).mpr (List.mem_range.mp hj)
    have h1 : a / params.blockPl * params.blockPl ≤ a := Nat.div_mul_le_self _ _
    by_contra hge
    have : n * params.blockPl ≤ (j + a / params.blockPl) * params.blockPl := Nat.mul_le_mul_right _ (by omega)
    rw [Nat.add_mul] at this
    omega
  obtain ⟨pr, outs, h1, h2, h3, h4⟩ := C03_random_access H hH params p n c cfg hr file iv hlen hu st hseal hlog
    idxs hne hall
  have hn0 : 0 < n := by
    rcases Nat.eq_zero_or_pos n with h | h
    · subst h; omega
    · exact h
  obtain ⟨-, -, n', L, hn', hL, -⟩ := singleUnsealPrepare_inv (h1 _ (List.head_mem hne))
  have hprep := batchUnsealPrepare_eq (H := H) (file := st.file) hI hn' hL h1
  exact ⟨_, outs, hprep, h2, h3, hne, fun i k out hi ho => (h4 i k out hi ho).1⟩

/-! ### C24: challenge sets -/

theorem genRange_range {lo hi : Nat} (raw : Nat) (h : lo < hi) : lo ≤ genRange raw lo hi ∧ genRange raw lo hi < hi := by
  unfold genRange
  have := Nat.mod_lt raw (show 0 < hi - lo by omega)
  omega

theorem genRange_zero {hi raw : Nat} (h : raw < hi) : genRange raw 0 hi = raw := by
  unfold genRange
  rw [Nat.sub_zero, Nat.mod_eq_of_lt h, Nat.zero_add]

/-- A finished challenge set is strictly increasing, in range and of the requested size. -/
theorem C24_sorted_distinct (draw : Nat → Nat) (n lo hi fuel : Nat) (out : List Nat)
    (h : createChallenges draw n lo hi fuel = .ok (some out)) :
    out.Pairwise (· < ·) ∧ out.length = n ∧ ∀ x ∈ out, lo ≤ x ∧ x < hi := by
  unfold createChallenges at h
  split at h
  · cases h
  · next hc =>
    have h := Except.ok.inj h
    rcases Nat.eq_zero_or_pos n with h0 | h0
    · subst h0
      unfold createChallengesLoop at h
      rw [if_neg (by simp)] at h
      cases h
      exact ⟨List.Pairwise.nil, rfl, by simp⟩
    · obtain ⟨h1, h2, h3⟩ := createChallengesLoop_spec (fun i => genRange_range (draw i) (by omega)) fuel 0 [] out
        List.Pairwise.nil (by simp) (by simp) h
      exact ⟨h1, h3, h2⟩

/-- Asking for more challenges than the range holds never terminates. -/
theorem C24_too_many_diverges (draw : Nat → Nat) (n lo hi : Nat) (hlt : lo < hi)
    (hn : hi - lo < n) (fuel : Nat) : createChallenges draw n lo hi fuel = .ok none := by
  cases hc : createChallenges draw n lo hi fuel with
  | error e =>
    unfold createChallenges at hc
    rw [if_neg (by omega)] at hc
    cases hc
  | ok r =>
    cases r with
    | none => rfl
    | some out =>
      obtain ⟨h1, h2, h3⟩ := C24_sorted_distinct draw n lo hi fuel out hc
      have hsub : out ⊆ List.range' lo (hi - lo) := by
        intro x hx
        rw [List.mem_range'_1]
        have := h3 x hx
        omega
      have hnd : out.Nodup := h1.imp (fun h => Nat.ne_of_lt h)
      have := (List.subperm_of_subset hnd hsub).length_le
      rw [List.length_range'] at this
      omega

/-- It terminates as soon as the draws have produced `n` different values. -/
theorem C24_terminates (draw : Nat → Nat) (n lo hi fuel : Nat) (hlt : lo < hi)
    (l : List Nat) (hnd : l.Nodup) (hn : n ≤ l.length)
    (hl : ∀ x ∈ l, ∃ j < fuel, lo + draw j % (hi - lo) = x) :
    ∃ out, createChallenges draw n lo hi fuel = .ok (some out) := by
  obtain ⟨out, ho⟩ := createChallengesLoop_terminates (draw := fun i => genRange (draw i) lo hi) l hn hnd fuel 0 [] List.Pairwise.nil
    (fun x hx => Or.inr (by
      obtain ⟨j, h1, h2⟩ := hl x hx
      exact ⟨j, by omega, by omega, h2⟩))
  refine ⟨out, ?_⟩
  unfold createChallenges
  rw [if_neg (by omega), ho]

/-- It panics exactly when something has to be drawn from an empty range; drawing nothing is fine. -/
theorem C24_panics_iff (draw : Nat → Nat) (n lo hi fuel : Nat) :
    ((∃ e, createChallenges draw n lo hi fuel = .error e) ↔ 0 < n ∧ hi ≤ lo) ∧
    createChallenges draw 0 lo hi fuel = .ok (some []) := by
  unfold createChallenges
  constructor
  · split
    · next h => exact ⟨fun _ => h, fun _ => ⟨_, rfl⟩⟩
    · next h => exact ⟨fun ⟨e, he⟩ => (by cases he), fun h' => absurd h' h⟩
  · rw [if_neg (by omega)]
    unfold createChallengesLoop
    rfl

theorem createChallengesLoop_exact (draw : Nat → Nat) (n : Nat) (fuel i : Nat) (set out : List Nat)
    (hset : set = ((List.range i).map draw).toFinset.sort (· ≤ ·))
    (hlow : ∀ m < i, ((List.range m).map draw).toFinset.card < n)
    (h : createChallengesLoop draw n fuel i set = some out) :
    ∃ m, i ≤ m ∧ m ≤ i + fuel ∧ out = ((List.range m).map draw).toFinset.sort (· ≤ ·) ∧
      (∀ m' < m, ((List.range m').map draw).toFinset.card < n) ∧ n ≤ out.length := by
  induction fuel generalizing i set with
  | zero =>
    unfold createChallengesLoop at h
    split at h
    · cases h
    · next hn =>
      cases h
      exact ⟨i, Nat.le_refl _, Nat.le_refl _, hset, hlow, by omega⟩
  | succ fuel ih =>
    unfold createChallengesLoop at h
    split at h
    · next hn =>
      have hcard : set.length = ((List.range i).map draw).toFinset.card := by rw [hset, Finset.length_sort]
      have hs : setInsert (draw i) set = ((List.range (i + 1)).map draw).toFinset.sort (· ≤ ·) := by
        apply List.Perm.eq_of_pairwise (le := (· ≤ ·))
        · intro a b _ _ h1 h2; omega
        · exact (setInsert_sorted (x := draw i) (l := set) (by rw [hset]; exact Finset.sortedLT_sort _ |>.pairwise)).imp (fun h => le_of_lt h)
        · exact Finset.pairwise_sort _ _
        · apply (List.perm_ext_iff_of_nodup ?_ ?_).mpr
          · intro a
            rw [mem_setInsert, Finset.mem_sort, List.mem_toFinset, hset, Finset.mem_sort, List.mem_toFinset, List.range_succ,
              List.map_append, List.mem_append]
            simp only [List.map_cons, List.map_nil, List.mem_singleton]
            tauto
          · exact (setInsert_sorted (x := draw i) (l := set) (by rw [hset]; exact Finset.sortedLT_sort _ |>.pairwise)).imp (fun h => ne_of_lt h)
          · exact Finset.sort_nodup _ _
      obtain ⟨m, h1, h2, h3⟩ := ih (i + 1) _ hs (fun m hm => by
        rcases Nat.lt_or_ge m i with h' | h'
        · exact hlow m h'
        · rw [show m = i by omega, ← hcard]; exact hn) h
      exact ⟨m, by omega, by omega, h3⟩
    · next hn =>
      cases h
      exact ⟨i, Nat.le_refl _, by omega, hset, hlow, by omega⟩

/-- The challenges are exactly the distinct values among the first draws, as many draws as were needed
to have `n` distinct ones, in increasing order; a random number is mapped into the range by its
remainder, so every value of the range comes up and no other. -/
theorem C24_exact (draw : Nat → Nat) (n lo hi fuel : Nat) (out : List Nat)
    (h : createChallenges draw n lo hi fuel = .ok (some out)) :
    ∃ m ≤ fuel, out = ((List.range m).map (fun i => lo + draw i % (hi - lo))).toFinset.sort (· ≤ ·) ∧
      (∀ m' < m, ((List.range m').map (fun i => lo + draw i % (hi - lo))).toFinset.card < n) ∧ n ≤ out.length := by
  unfold createChallenges at h
  split at h
  · cases h
  · obtain ⟨m, -, h2, h3⟩ := createChallengesLoop_exact (fun i => genRange (draw i) lo hi) n fuel 0 [] out (by simp) (fun m hm => by omega) (Except.ok.inj h)
    exact ⟨m, by omega, h3⟩

example : createChallenges (fun i => i * i) 3 3 8 10 = .ok (some [3, 4, 7]) := by decide

/-! ### C84: the random origin file -/

/-- The random file takes one fresh draw per byte: byte `i` is the `i`-th draw.  So the files of a
given length and the sequences of draws correspond one to one, and every file is equally likely. -/
theorem C84_random_file (len : Nat) :
    (∀ rng : Nat → UInt8, (createRandomFile rng len).length = len ∧
      ∀ i < len, (createRandomFile rng len)[i]? = some (rng i)) ∧
    (∀ rng rng' : Nat → UInt8, createRandomFile rng len = createRandomFile rng' len ↔ ∀ i < len, rng i = rng' i) ∧
    ∀ file : Bytes, file.length = len → ∃ rng, createRandomFile rng len = file := by
  have h1 : ∀ rng : Nat → UInt8, (createRandomFile rng len).length = len ∧
      ∀ i < len, (createRandomFile rng len)[i]? = some (rng i) := by
    intro rng
    unfold createRandomFile
    exact ⟨by simp, fun i hi => by rw [List.getElem?_map, List.getElem?_range hi]; rfl⟩
  refine ⟨h1, fun rng rng' => ⟨fun h i hi => ?_, fun h => ?_⟩, fun file hf => ⟨fun i => file.getD i 0, ?_⟩⟩
  · have e := (h1 rng).2 i hi
    rw [h, (h1 rng').2 i hi] at e
    exact (Option.some.inj e).symm
  · apply List.ext_getElem?
    intro i
    by_cases hi : i < len
    · rw [(h1 rng).2 i hi, (h1 rng').2 i hi, h i hi]
    · rw [List.getElem?_eq_none (by rw [(h1 rng).1]; omega), List.getElem?_eq_none (by rw [(h1 rng').1]; omega)]
  · apply List.ext_getElem?
    intro i
    by_cases hi : i < len
    · rw [(h1 _).2 i hi, List.getD_eq_getElem?_getD, List.getElem?_eq_getElem (by omega)]
      rfl
    · rw [List.getElem?_eq_none (by rw [(h1 _).1]; omega), List.getElem?_eq_none (by omega)]

example : createRandomFile (fun i => UInt8.ofNat (i * i)) 4 = [0, 1, 4, 9] := by decide

/-! ### C25, C26: which blocks a byte range selects -/

/-- A range beginning on a block boundary selects exactly the blocks it overlaps. -/
theorem C25_aligned_range (bpl a b : Nat) (hbpl : 0 < bpl) (ha : bpl ∣ a) :
    ∃ idxs, blocksIdxOf bpl a b = .ok idxs ∧ idxs.Pairwise (· < ·) ∧
      ∀ k, k ∈ idxs ↔ ∃ x, a ≤ x ∧ x < b ∧ x / bpl = k := by
  refine ⟨_, blocksIdxOf_eq hbpl, ?_, ?_⟩
  · rw [List.pairwise_map]
    exact List.pairwise_lt_range.imp (fun h => by omega)
  · intro k
    obtain ⟨q, rfl⟩ := ha
    rw [List.mem_map]
    constructor
    · rintro ⟨j, hj, rfl⟩
      have := (lt_ceil_iff (a := bpl * q) (b := b) hbpl j).mpr (List.mem_range.mp hj)
      refine ⟨j * bpl + bpl * q, by omega, this, ?_⟩
      rw [Nat.mul_comm j bpl, ← Nat.mul_add, Nat.mul_div_cancel_left _ hbpl, Nat.mul_div_cancel_left _ hbpl]
    · rintro ⟨x, h1, h2, rfl⟩
      have hq : q ≤ x / bpl := (Nat.le_div_iff_mul_le hbpl).mpr (by rw [Nat.mul_comm]; exact h1)
      refine ⟨x / bpl - q, List.mem_range.mpr ((lt_ceil_iff hbpl _).mp ?_), ?_⟩
      · have h3 : x / bpl * bpl ≤ x := Nat.div_mul_le_self _ _
        have h4 : (x / bpl - q) * bpl + bpl * q = x / bpl * bpl := by
          rw [Nat.mul_comm bpl q, ← Nat.add_mul, Nat.sub_add_cancel hq]
        omega
      · rw [Nat.mul_div_cancel_left _ hbpl]; omega

/-- Bytes 8 to 19 of a file with blocks of 4: blocks 2 to 4. -/
example : blocksIdxOf 4 8 20 = .ok [2, 3, 4] ∧ blocksIdxOf 4 8 19 = .ok [2, 3, 4] := by decide

/-- For an arbitrary non-empty range the selected blocks are the `ceil((b - a) / bpl)` blocks
from that of `a`; the last overlapped block is missing exactly when the offset of the end in
its block (counted 1 to `bpl`) is at most the offset of the beginning. -/
theorem C26_unaligned_range (bpl a b : Nat) (hbpl : 0 < bpl) (hab : a < b) :
    ∃ idxs, blocksIdxOf bpl a b = .ok idxs ∧
      idxs.length * bpl < b - a + bpl ∧ b - a ≤ idxs.length * bpl ∧
      (∀ i (h : i < idxs.length), idxs[i] = a / bpl + i) ∧
      (∀ k ∈ idxs, ∃ x, a ≤ x ∧ x < b ∧ x / bpl = k) ∧
      (((b - 1) / bpl ∉ idxs) ↔ (b - 1) % bpl + 1 ≤ a % bpl) ∧
      (∀ x, a ≤ x → x < b → x / bpl ≠ (b - 1) / bpl → x / bpl ∈ idxs) := by
  refine ⟨_, blocksIdxOf_eq hbpl, ?_⟩
  set m := (b - a + bpl - 1) / bpl with hm
  have hmem : ∀ k, k ∈ (List.range m).map (fun j => j + a / bpl) ↔ a / bpl ≤ k ∧ k < a / bpl + m := by
    intro k
    rw [List.mem_map]
    constructor
    · rintro ⟨j, hj, rfl⟩; have := List.mem_range.mp hj; omega
    · rintro ⟨h1, h2⟩; exact ⟨k - a / bpl, List.mem_range.mpr (by omega), by omega⟩
  have hceil : ∀ j, j * bpl + a < b ↔ j < m := lt_ceil_iff hbpl
  have hdm : ∀ x, x = x / bpl * bpl + x % bpl ∧ x % bpl < bpl := fun x =>
    ⟨(Nat.div_add_mod' x bpl).symm, Nat.mod_lt x hbpl⟩
  have hm1 : 0 < m := (hceil 0).mp (by omega)
  have h1 : ¬ (m * bpl + a < b) := fun h => Nat.lt_irrefl m ((hceil m).mp h)
  have h2 : (m - 1) * bpl + a < b := (hceil (m - 1)).mpr (by omega)
  have hms : m * bpl = (m - 1) * bpl + bpl := by
    rw [← Nat.succ_mul]; congr 1; omega
  obtain ⟨ha1, ha2⟩ := hdm a
  obtain ⟨hb1, hb2⟩ := hdm (b - 1)
  have hle : a / bpl ≤ (b - 1) / bpl := Nat.div_le_div_right (by omega)
  -- the last overlapped block is `a / bpl + d`
  obtain ⟨d, hd⟩ : ∃ d, (b - 1) / bpl = a / bpl + d := ⟨(b - 1) / bpl - a / bpl, by omega⟩
  have hdm' : d < m ↔ a % bpl < (b - 1) % bpl + 1 := by
    rw [← hceil d]
    rw [hd, Nat.add_mul] at hb1
    omega
  have hup : ∀ j, j * bpl + a < b → j ≤ d := by
    intro j hj
    by_contra hjd
    have : (d + 1) * bpl ≤ j * bpl := Nat.mul_le_mul_right _ (by omega)
    rw [Nat.succ_mul] at this
    rw [hd, Nat.add_mul] at hb1
    omega
  have hdlow : d ≤ m := by
    by_contra hlt
    have : (m + 1) * bpl ≤ d * bpl := Nat.mul_le_mul_right _ (by omega)
    rw [Nat.succ_mul] at this
    rw [hd, Nat.add_mul] at hb1
    omega
  refine ⟨?_, ?_, ?_, ?_, ?_, ?_⟩
  · simp only [List.length_map, List.length_range]; omega
  · simp only [List.length_map, List.length_range]; omega
  · intro i h
    simp only [List.getElem_map, List.getElem_range]
    omega
  · intro k hk
    have hk := (hmem k).mp hk
    have hj : (k - a / bpl) * bpl + a < b := (hceil _).mpr (by omega)
    refine ⟨(k - a / bpl) * bpl + a, by omega, hj, ?_⟩
    rw [Nat.add_comm, Nat.add_mul_div_right _ _ hbpl]
    omega
  · rw [hmem, hd]
    omega
  · intro x hx1 hx2 hx3
    rw [hmem]
    have h3 : a / bpl ≤ x / bpl := Nat.div_le_div_right hx1
    have h4 : x / bpl ≤ (b - 1) / bpl := Nat.div_le_div_right (by omega)
    omega

/-- The miss really happens: bytes 3 to 5 with blocks of 4 bytes overlap blocks 0 and 1, but
only block 0 is selected. -/
example : blocksIdxOf 4 3 5 = .ok [0] ∧ (5 - 1) / 4 = 1 := by decide

/-! ### C27: comparison with the original -/

/-- The comparison accepts exactly when every unit's first `unit_l` bytes are the bytes of the
original file at the unit's place (zeros past the end of the file). -/
theorem C27_accepts_iff (origin : Bytes) (k blockL unitL c : Nat) (hu : 0 < unitL) (hb : blockL = c * unitL)
    (blk : List Bytes) :
    batchVerify origin k blk blockL unitL = .ok () ↔
      ∀ j < c, ∃ u, blk[j]? = some u ∧ unitL ≤ u.length ∧
        ∀ t < unitL, u[t]? = some (origin[k * blockL + j * unitL + t]?.getD 0) := by
  rw [batchVerify_iff hu hb]
  refine forall_congr' (fun j => forall_congr' (fun hj => exists_congr (fun u => and_congr_right (fun _ => ?_))))
  constructor
  · intro h
    have hl : (u.take unitL).length = unitL := by rw [h, readFile_length]
    rw [List.length_take] at hl
    refine ⟨by omega, fun t ht => ?_⟩
    have h2 : (u.take unitL)[t]? = (readFile origin (k * blockL + j * unitL) unitL)[t]? := by rw [h]
    rw [List.getElem?_take, if_pos ht, readFile_getElem?, if_pos ht] at h2
    exact h2
  · rintro ⟨h1, h2⟩
    apply List.ext_getElem?
    intro t
    rw [List.getElem?_take, readFile_getElem?]
    split
    · next ht => exact h2 t ht
    · rfl

/-- In particular the padding byte and everything after the first `unit_l` bytes of a unit is
never looked at. -/
theorem C27_padding_ignored (origin : Bytes) (k blockL unitL c : Nat) (hu : 0 < unitL) (hb : blockL = c * unitL)
    (blk blk' : List Bytes) (h : blk.map (fun u => u.take unitL) = blk'.map (fun u => u.take unitL)) :
    batchVerify origin k blk blockL unitL = .ok () ↔ batchVerify origin k blk' blockL unitL = .ok () := by
  have key : ∀ b b' : List Bytes, b.map (fun u => u.take unitL) = b'.map (fun u => u.take unitL) →
      batchVerify origin k b blockL unitL = .ok () → batchVerify origin k b' blockL unitL = .ok () := by
    intro b b' he hv
    rw [batchVerify_iff hu hb] at hv ⊢
    intro j hj
    obtain ⟨u, h1, h2⟩ := hv j hj
    have h3 : (b.map (fun u => u.take unitL))[j]? = some (u.take unitL) := by rw [List.getElem?_map, h1]; rfl
    rw [he, List.getElem?_map] at h3
    cases hb' : b'[j]? with
    | none => rw [hb'] at h3; cases h3
    | some u' =>
      rw [hb'] at h3
      have h4 : u'.take unitL = u.take unitL := by simpa using h3
      exact ⟨u', rfl, by rw [h4]; exact h2⟩
  exact ⟨key _ _ h, key _ _ h.symm⟩

example : batchVerify [1, 2, 3, 4] 0 [[1, 2, 9], [3, 4, 7]] 4 2 = .ok () ∧
    batchVerify [1, 2, 3, 4] 0 [[1, 2, 9], [3, 5, 7]] 4 2 = .error .assertion := by decide

/-! ### C28: the same mask -/

/-- After sealing has replaced unit `idx1`, each of the four copies of the gathering code
collects on the new block exactly the bytes that sealing collected on the old block. -/
theorem C28_same_mask (H : Bytes → Bytes) (params : PosPara) (key : Int) (iv : Bytes) (S : List (List Nat))
    (n : Nat) (hS : idxsSOf params n = .ok S) (ids : List Bytes) (deps : List (List Bytes))
    (unitCnt idx2 idx1 : Nat) (s s' : List Bytes × List Nat)
    (h : sealUnit H params key iv S ids deps unitCnt idx2 idx1 s = .ok s') :
    ∃ mask, sealDependData H params S deps s.1 unitCnt idx1 = .ok mask ∧
      unsealDependData H params S deps s'.1 unitCnt idx1 = .ok mask ∧
      (∀ all i, all[i]? = some deps →
        batchDependData H params S all s'.1 unitCnt i idx1 = .ok mask ∧
        parDependData H params S all s'.1 unitCnt i idx1 = .ok mask ∧
        buvDependData H params S all s'.1 unitCnt i idx1 = .ok mask) := by
  have h0 := h
  unfold sealUnit at h
  simp only [bind_eq_ok] at h
  obtain ⟨dd, hdd, dd', -, u, -, v, -, cur, hcur, h⟩ := h
  cases h
  obtain ⟨-, rfl⟩ := put!_eq_ok.mp hcur
  have hm : sealDependData H params S deps (s.1.set idx1
      (Rug.vde v key params.vdeRounds params.vdeMode params.unitPl)) unitCnt idx1 = .ok dd := by
    rw [sealDependData_set (idxsSOf_shortOk hS)]; exact hdd
  refine ⟨dd, hdd, hm, ?_⟩
  intro all i hi
  refine ⟨?_, ?_, ?_⟩
  · unfold batchDependData; rw [at!_eq_ok.mpr hi, bind_ok]; exact hm
  · unfold parDependData; rw [at!_eq_ok.mpr hi, bind_ok]; exact hm
  · unfold buvDependData; rw [at!_eq_ok.mpr hi, bind_ok]; exact hm

/-- The blocks sealing depended on are the blocks a verifier reads from the finished file,
and (hash-chosen dependencies) the blocks unsealing reads at its moment, when the blocks up to
`k` are still as sealed. -/
theorem C28_same_blocks (H : Bytes → Bytes) (hH : ∀ x, (H x).length = 32) (params : PosPara)
    (p n c : Nat) (cfg : Config params p n c) (file iv : Bytes)
    (hlen : n * params.blockPl ≤ file.length) (hu : UnitsBelow params p n c file) (st : SealState)
    (hseal : sealFile H params file (p : Int) iv = .ok st) (k : Nat) (hk : k < n) :
    ∃ L s deps pr, idxsLOf params n = .ok L ∧ sealPrefix H params file (p : Int) iv k = .ok s ∧
      sealDependBlocks H params n L s.file s.ids k = .ok deps ∧
      singleUnsealPrepare H params st.file k = .ok pr ∧ pr.dependBlocks = deps ∧
      (k ≠ 0 → s.ids[k - 1]? = some pr.beforeId) ∧
      ∀ f : Bytes, (∀ i < (k + 1) * params.blockPl, f[i]? = st.file[i]?) →
        (k ≠ 0 → unsealBeforeId H params f k = pr.beforeId) ∧
        (params.modeL = 0 →
          unsealDependBlocks H params n L f (unsealBeforeId H params f k) k = .ok deps) := by
  rw [sealFile_eq cfg] at hseal
  obtain ⟨L, S, hL, hS, hrun⟩ := sealPrefix_eq cfg hseal
  have h0 : SealInv H params p n c file 0 { file := file, ids := List.replicate n [], log := [] } :=
    sealInv_zero (fun i hi => hu.blockOk cfg.layout hi)
  obtain ⟨hfin, -, htr⟩ := seal_trace hH cfg.keyOk cfg.layout (idxsSOf_shortOk hS) hlen h0 (Nat.le_refl n) hrun
  obtain ⟨-, s', -, -, hinv', hpre, hrun', hsame⟩ := htr k hk
  rw [forUp_succ, bind_eq_ok] at hrun'
  obtain ⟨s, hsrun, hblk⟩ := hrun'
  obtain ⟨hinv, -, -⟩ := seal_trace hH cfg.keyOk cfg.layout (idxsSOf_shortOk hS) hlen h0 (by omega) hsrun
  obtain ⟨-, -, hlow, us, us', deps, b, hb1, hb0, hb2, hus, husl, hus', husl', hflat, hdeps, -, -, -⟩ :=
    sealBlock_spec hH cfg.keyOk cfg.layout (idxsSOf_shortOk hS) hlen hk hinv hblk
  have hpref : sealPrefix H params file (p : Int) iv k = .ok s := by
    unfold sealPrefix
    rw [cfg.div, bind_ok, hL, bind_ok, hS, bind_ok]
    exact hsrun
  have key : ∀ f : Bytes, (∀ i < (k + 1) * params.blockPl, f[i]? = st.file[i]?) →
      (∀ i ≤ k, blockOf params f i = blockOf params s'.file i) ∧
      (∀ i < k, blockOf params f i = blockOf params s.file i) := by
    intro f hf
    have hle : ∀ i ≤ k, blockOf params f i = blockOf params s'.file i := by
      intro i hi
      apply blockOf_congr
      intro j _ hj
      have : (i + 1) * params.blockPl ≤ (k + 1) * params.blockPl := Nat.mul_le_mul_right _ (by omega)
      rw [hf j (by omega)]
      exact hsame j (by omega)
    refine ⟨hle, fun i hi => ?_⟩
    rw [hle i (by omega)]
    apply blockOf_congr
    intro j _ hj
    apply hlow
    have : (i + 1) * params.blockPl ≤ k * params.blockPl := Nat.mul_le_mul_right _ (by omega)
    omega
  have hdep : ∀ f : Bytes, (∀ i < (k + 1) * params.blockPl, f[i]? = st.file[i]?) →
      _ = _ := fun f hf =>
    sealDependBlocks_eq (H := H) (params := params) (n := n) (idxsLOf_longOk hL) hb1 (key f hf).2
  have hbid : ∀ f : Bytes, (∀ i < (k + 1) * params.blockPl, f[i]? = st.file[i]?) → k ≠ 0 →
      b = H (blockOf params f (k - 1)) := by
    intro f hf hk0
    rw [(key f hf).1 (k - 1) (by omega)]
    exact hb2 hk0
  have hdst := hdep st.file (fun i _ => rfl)
  rw [hdeps] at hdst
  have hprep : singleUnsealPrepare H params st.file k = .ok ⟨us', b, deps⟩ := by
    have e1 : toUnits (readFile st.file (k * params.blockPl) params.blockPl) params.unitPl = .ok us' := by
      have := (key st.file (fun i _ => rfl)).1 k (Nat.le_refl k)
      unfold blockOf at this hus'
      rw [this]
      exact hus'
    have e2 : (if k ≠ 0 then H (readFile st.file ((k - 1) * params.blockPl) params.blockPl) else []) = b := by
      by_cases hk0 : k = 0
      · rw [if_neg (by simp [hk0])]; exact (hb0 hk0).symm
      · rw [if_pos hk0]; exact (hbid st.file (fun i _ => rfl) hk0).symm
    unfold singleUnsealPrepare
    simp only []
    rw [e1, bind_ok, cfg.div, bind_ok, hL, bind_ok]
    simp only [e2]
    exact bind_eq_ok.mpr ⟨deps, hdst.symm, rfl⟩
  refine ⟨L, s, deps, _, hL, hpref, hdeps, hprep, rfl, hb1, ?_⟩
  intro f hf
  have hid : k ≠ 0 → unsealBeforeId H params f k = b := by
    intro hk0
    rw [hbid f hf hk0]
    unfold unsealBeforeId
    rw [if_pos hk0]
    rfl
  refine ⟨hid, fun hm => ?_⟩
  rw [unsealDependBlocks_eq (Or.inl hm)]
  have h2 := hdep f hf
  rw [hdeps] at h2
  rw [h2, if_pos hm, if_pos hm]
  by_cases hk0 : k = 0
  · simp only [hk0, if_true]
  · rw [hid hk0]

/-- The last of three blocks of two units depends, in the finished file, on an earlier block. -/
example : (match copyAndPad (toyFile 378) 378 63 with
    | .ok padded => (match sealPrefix toyHash (toyParams 3 2 0 0 0 10 1) padded P_512 [1, 2, 3] 2,
        sealFile toyHash (toyParams 3 2 0 0 0 10 1) padded P_512 [1, 2, 3] with
      | .ok s, .ok st => (match singleUnsealPrepare toyHash (toyParams 3 2 0 0 0 10 1) st.file 2,
          sealDependBlocks toyHash (toyParams 3 2 0 0 0 10 1) 3 [] s.file s.ids 2 with
        | .ok pr, .ok deps => decide (pr.dependBlocks = deps ∧ deps ≠ [] ∧ s.ids[1]? = some pr.beforeId ∧
            s.file ≠ st.file)
        | _, _ => false)
      | _, _ => false)
    | .error _ => false) = true := by decide +kernel

/-! ### C53: self-chosen dependencies -/

/-- A block made from the plaintext alone for invented dependencies; the verifier's rounds undo it. -/
theorem invented_block {H : Bytes → Bytes} (hH : ∀ x, (H x).length = 32) {params : PosPara}
    {p n c : Nat} (cfg : Config params p n c) (hS : params.modeS = 0) (hc : ShortCountOk c params.cntS) (origin iv : Bytes)
    (k : Nat) (deps : List (List Bytes)) (hdeps : ∀ d ∈ deps, d.length = c) (before : Bytes) :
    ∃ plain block log,
      plain = (List.range c).map (fun j => readFile origin (k * params.blockL + j * params.unitL) params.unitL ++ [0]) ∧
      sealRoundsLoop H params (p : Int) iv [] (List.replicate k before) deps c k (plain, []) = .ok (block, log) ∧
      block.length = c ∧
      ((∀ v ∈ log, v ≠ 0) → unsealRoundsLoop H params (p : Int) iv [] before deps c k block = .ok plain) ∧
      batchVerify origin k plain params.blockL params.unitL = .ok () := by
  obtain ⟨ou, h1, h2, h3, h4⟩ := toUnits_ok (readFile origin (k * params.blockL) params.blockL) params.unitL c
    cfg.unit_pos (by rw [readFile_length, cfg.block])
  have hT : idxsSOf params n = .ok [] := by
    unfold idxsSOf; rw [if_neg (by simp [hS])]; rfl
  have hok : UnitsOk p params.unitPl (padUnits ou) := by
    intro u hu
    unfold padUnits at hu
    rw [List.mem_map] at hu
    obtain ⟨w, hw, rfl⟩ := hu
    refine ⟨by rw [cfg.unit_pl]; simp [h3 w hw], ?_⟩
    have e : leNat (w ++ [0]) = leNat w := by rw [leNat_append]; simp [leNat]
    rw [e]
    have := leNat_lt w
    rw [h3 w hw] at this
    exact lt_of_lt_of_le this cfg.above_units
  have hlen : (padUnits ou).length = c := by unfold padUnits; simp [h2]
  have hb : k ≠ 0 → (List.replicate k before)[k - 1]? = some before := by
    intro hk
    rw [List.getElem?_replicate, if_pos (by omega)]
  obtain ⟨⟨block, log⟩, hrun⟩ := sealRoundsLoop_ok hH cfg.keyOk hS hc (iv := iv) (idxsSOf_shortOk hT)
    (ids := List.replicate k before) hdeps (s := (padUnits ou, [])) hlen hok (idx2 := k) hb
  obtain ⟨⟨-, hbl, -⟩, hun⟩ := sealRoundsLoop_spec hH cfg.keyOk (idxsSOf_shortOk hT) hb hok hrun
  simp only at hbl
  have hunit : ∀ j (hj : j < ou.length), ou[j] = readFile origin (k * params.blockL + j * params.unitL) params.unitL := by
    intro j hju
    have := flatten_drop_take ou params.unitL j hju h3 []
    rw [List.append_nil, h4] at this
    rw [← this]
    apply readFile_readFile
    rw [cfg.block]
    have : (j + 1) * params.unitL ≤ c * params.unitL := Nat.mul_le_mul_right _ (by omega)
    rw [Nat.succ_mul] at this
    exact this
  refine ⟨padUnits ou, block, log, ?_, hrun, by rw [hbl, hlen], fun hlog => (hun hlog).2, ?_⟩
  · unfold padUnits
    apply List.ext_getElem
    · simp [h2]
    · intro j hj hj'
      rw [List.getElem_map, List.getElem_map, List.getElem_range, hunit j (by simpa using hj)]
  · rw [batchVerify_iff cfg.unit_pos cfg.block]
    intro j hj
    have hju : j < ou.length := by omega
    refine ⟨ou[j] ++ [0], ?_, ?_⟩
    · unfold padUnits
      rw [List.getElem?_map, List.getElem?_eq_getElem hju]; rfl
    · have hl : (ou[j]).length = params.unitL := h3 _ (List.getElem_mem hju)
      rw [← hl, List.take_left, hl]
      exact hunit j hju

/-- Any invented dependency blocks (of the right shape) and previous identifier will do: the units of
the original, each with a zero byte added, are encoded under them, and the verifier unseals the result
to these units and accepts; the only proviso is that no encoder input was zero. -/
theorem C53_invented_dependencies (H : Bytes → Bytes) (hH : ∀ x, (H x).length = 32) (params : PosPara)
    (p n c : Nat) (cfg : Config params p n c) (hS : params.modeS = 0) (hc : ShortCountOk c params.cntS) (origin iv : Bytes)
    (k : Nat) (deps : List (List Bytes)) (hdeps : ∀ d ∈ deps, d.length = c) (before : Bytes) :
    ∃ plain block log,
      plain = (List.range c).map (fun j => readFile origin (k * params.blockL + j * params.unitL) params.unitL ++ [0]) ∧
      sealRoundsLoop H params (p : Int) iv [] (List.replicate k before) deps c k (plain, []) = .ok (block, log) ∧
      ((∀ v ∈ log, v ≠ 0) →
        batchUnseal H params [k] [block] [before] [deps] (p : Int) iv = .ok [plain] ∧
        batchVerify origin k plain params.blockL params.unitL = .ok ()) := by
  obtain ⟨plain, block, log, h0, h1, h2, h3, h4⟩ := invented_block hH cfg hS hc origin iv k deps hdeps before
  have hT' : batchIdxsS params = .ok [] := by
    unfold batchIdxsS; rw [if_neg (by simp [hS])]; rfl
  refine ⟨plain, block, log, h0, h1, fun hlog => ⟨?_, h4⟩⟩
  refine batchUnseal_eq hT' rfl rfl rfl rfl ?_
  intro i hi
  have hi0 : i = 0 := by simp at hi; omega
  subst hi0
  simp only [List.getElem_cons_zero]
  rw [h2]
  exact h3 hlog

/-- Block 1 of a file, encoded under an invented previous identifier and an invented dependency
block (nothing of the kind occurs in any sealed file): no encoder input is zero. -/
example :
    let plain := (List.range 2).map (fun j => readFile (toyFile 252) (1 * 126 + j * 63) 63 ++ [0])
    (match sealRoundsLoop toyHash (toyParams 2 2 0 0 1 1 2) P_512 [1, 2, 3] [] [[42]] [[[1], [2, 3]]] 2 1 (plain, []) with
      | .ok (block, log) => decide ((∀ v ∈ log, v ≠ 0) ∧ log.length = 4 ∧ block ≠ plain ∧
          batchUnseal toyHash (toyParams 2 2 0 0 1 1 2) [1] [block] [[42]] [[[[1], [2, 3]]]] P_512 [1, 2, 3] = .ok [plain] ∧
          batchVerify (toyFile 252) 1 plain 126 63 = .ok ())
      | .error _ => false) = true := by decide +kernel

/-! ### C58: unsealing and comparing in one go -/

/-- `batch_unseal_and_verify` accepts exactly when `batch_unseal` succeeds and `batch_verify`
accepts every block it returns, provided the two dependency tables agree (always, for
hash-chosen short dependencies). -/
theorem C58_unseal_and_verify_iff (H : Bytes → Bytes) (params : PosPara) (origin : Bytes) (idxs : List Nat)
    (blocks : List (List Bytes)) (ids : List Bytes) (deps : List (List (List Bytes))) (key : Int) (iv : Bytes)
    (htab : batchIdxsS params = parIdxsS params) :
    batchUnsealAndVerify H params origin idxs blocks ids deps key iv = .ok () ↔
      ∃ outs, batchUnseal H params idxs blocks ids deps key iv = .ok outs ∧
        outs.length = blocks.length ∧
        ∀ (i k : Nat) (out : List Bytes), idxs[i]? = some k → outs[i]? = some out →
          batchVerify origin k out params.blockL params.unitL = .ok () := by
  have hdef : batchUnsealAndVerify H params origin idxs blocks ids deps key iv =
      (parIdxsS params >>= fun S => forUp blocks.length (fun i _ =>
        at! idxs i >>= fun idx2 => at! blocks i >>= fun cur =>
          (forUp params.sealRounds (fun _ s =>
            forUp cur.length (fun j s => do
              let a ← sub! cur.length 1
              let idx1 ← sub! a j
              batchUnit H params key iv S ids deps cur.length i idx2 idx1 s) s) cur) >>= fun out =>
          batchVerify origin idx2 out params.blockL params.unitL) ()) := rfl
  rw [hdef, ← htab]
  cases hT : batchIdxsS params with
  | error e =>
    constructor
    · intro h; cases h
    · rintro ⟨outs, h, -⟩
      unfold batchUnseal at h
      rw [hT] at h
      cases h
  | ok S =>
    rw [bind_ok, forUp_unit_iff]
    constructor
    · intro h
      have hb : ∀ i < blocks.length, ∃ k out, idxs[i]? = some k ∧
          batchBlock H params key iv S idxs ids deps i blocks = .ok out ∧
          batchVerify origin k out params.blockL params.unitL = .ok () := by
        intro i hi
        have := h i hi
        simp only [bind_eq_ok] at this
        obtain ⟨k, hk, cur, hcur, out, hout, hv⟩ := this
        refine ⟨k, out, at!_eq_ok.mp hk, ?_, hv⟩
        unfold batchBlock
        rw [hk, bind_ok, hcur, bind_ok]
        exact hout
      choose ks os h1 h2 h3 using hb
      refine ⟨List.ofFn (fun i : Fin blocks.length => os i i.2), (batchUnseal_iff hT).mpr ⟨by simp, ?_⟩, by simp, ?_⟩
      · intro i hi
        rw [List.getElem_ofFn]
        exact h2 i hi
      · intro i k out hk ho
        obtain ⟨hi, ho⟩ := List.getElem?_eq_some_iff.mp ho
        rw [List.getElem_ofFn] at ho
        have hi' : i < blocks.length := by simpa using hi
        have := h1 i hi'
        rw [hk] at this
        cases this
        subst ho
        exact h3 i hi'
    · rintro ⟨outs, ho, hl, hv⟩ i hi
      obtain ⟨_, hb⟩ := (batchUnseal_iff hT).mp ho
      have hbi := hb i hi
      unfold batchBlock at hbi
      simp only [bind_eq_ok] at hbi
      obtain ⟨k, hk, cur, hcur, hout⟩ := hbi
      have hv' := hv i k (outs[i]'(by omega)) (at!_eq_ok.mp hk) (List.getElem?_eq_getElem _)
      rw [hk, bind_ok, hcur, bind_ok]
      exact bind_eq_ok.mpr ⟨_, by simpa only [bind_eq_ok] using hout, hv'⟩

theorem C58_tables_agree (params : PosPara) (h : params.modeS = 0) : batchIdxsS params = parIdxsS params := by
  unfold batchIdxsS parIdxsS
  rw [if_neg (by simp [h]), if_neg (by simp [h])]

/-- Both verdicts occur: the block of the example above is accepted, and with one byte of the origin
changed it is not. -/
example :
    let params := toyParams 2 2 0 0 1 1 1
    let plain := (List.range 2).map (fun j => readFile (toyFile 252) (1 * 126 + j * 63) 63 ++ [0])
    (match sealRoundsLoop toyHash params P_512 [1, 2, 3] [] [[42]] [[[1], [2, 3]]] 2 1 (plain, []) with
      | .ok (block, _) => decide (
          batchUnsealAndVerify toyHash params (toyFile 252) [1] [block] [[42]] [[[[1], [2, 3]]]] P_512 [1, 2, 3] = .ok () ∧
          batchUnsealAndVerify toyHash params ((toyFile 252).set 130 0) [1] [block] [[42]] [[[[1], [2, 3]]]] P_512 [1, 2, 3] =
            .error .assertion)
      | .error _ => false) = true := by decide +kernel

end PoS
