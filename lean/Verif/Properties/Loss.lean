import Verif.Properties.Detection
import Verif.Properties.Retrieval

/-
C92: what is lost when the encoder meets a zero.
-/

namespace PoS

set_option linter.unusedSectionVars false

/-- No unit is zero at the moment it is encoded, while block `k` is sealed. -/
def BlockNoZero (S : Sealing) (plain : Nat → List Bytes) (k : Nat) : Prop :=
  S.NoZeroEncoded (S.dependencies (S.sealedBlocks plain k) k) (S.chaining (S.sealedBlocks plain k) k) (plain k)

/-- A zero encoded `t > 0` times is decoded to something else. -/
theorem undelay_encode_zero {p : Nat} (hp : p.Prime) (h34 : p % 4 = 3) (h3 : 5 ≤ p) {t : Nat} (ht : 0 < t) :
    (undelay p)^[t] (encode p t 0) ≠ 0 ∧ (undelay p)^[t] (encode p t 0) < p ∧ encode p t 0 < p := by
  have h2 : (undelay p)^[2] 2 ≠ 0 := by
    have e1 : undelay p 2 = p - 1 := by
      have h : (if 2 % 2 = 1 then (2 + 1) % p else (2 + p - 1) % p) = 1 := by
        rw [if_neg (by omega), show 2 + p - 1 = 1 + p by omega, Nat.add_mod_right, Nat.mod_eq_of_lt (by omega : 1 < p)]
      unfold undelay
      simp only []
      rw [h, if_pos (by omega), one_pow, Nat.mod_eq_of_lt (by omega : 1 < p)]
    have e2 : undelay p (p - 1) = p - (p - 2) ^ 2 % p := by
      have h : (if (p - 1) % 2 = 1 then (p - 1 + 1) % p else (p - 1 + p - 1) % p) = p - 2 := by
        rw [if_neg (by omega), show p - 1 + p - 1 = (p - 2) + p by omega, Nat.add_mod_right,
          Nat.mod_eq_of_lt (by omega : p - 2 < p)]
      unfold undelay
      simp only []
      rw [h, if_pos (by omega)]
    show undelay p (undelay p 2) ≠ 0
    rw [e1, e2]
    have := Nat.mod_lt ((p - 2) ^ 2) (by omega : 0 < p)
    omega
  have hlt : (undelay p)^[t] (encode p t 0) < p := by
    cases t with
    | zero => omega
    | succ t => rw [Function.iterate_succ_apply']; exact undelay_lt hp _
  refine ⟨?_, hlt, ?_⟩
  · unfold encode
    rw [if_pos rfl, if_neg (by omega)]
    by_cases h1 : t = 1
    · subst h1
      rw [if_pos rfl]
      show undelay p 1 ≠ 0
      have : undelay p 1 = 2 ^ 2 % p := by
        have h : (if 1 % 2 = 1 then (1 + 1) % p else (1 + p - 1) % p) = 2 := by
          rw [if_pos (by omega), Nat.mod_eq_of_lt (by omega : 1 + 1 < p)]
        show (if (if 1 % 2 = 1 then (1 + 1) % p else (1 + p - 1) % p) % 2 = 1 then
          p - (if 1 % 2 = 1 then (1 + 1) % p else (1 + p - 1) % p) ^ 2 % p
          else (if 1 % 2 = 1 then (1 + 1) % p else (1 + p - 1) % p) ^ 2 % p) = _
        rw [h, if_neg (by omega)]
      rw [this, Nat.mod_eq_of_lt (by omega)]
      norm_num
    · rw [if_neg h1, show t = 2 + (t - 2) by omega, Function.iterate_add_apply, show 2 + (t - 2) - 2 = t - 2 by omega]
      have := (C79_decoder hp h34 (t - 2) 2 (by norm_num) (by omega)).1
      unfold encode at this
      rw [if_neg (by norm_num)] at this
      rw [this]
      exact h2
  · unfold encode
    rw [if_pos rfl, if_neg (by omega)]
    split
    · omega
    · exact (sloth_iterate hp h34 (x := 2) (by norm_num) (by omega) (t - 2)).2.2

namespace Sealing

variable {S : Sealing} {dec : Nat → Nat} {deps : List (List Bytes)} {chain : Bytes}

theorem stepUnit_shape {b : List Bytes} {j : Nat} (h : b.length = S.c ∧ ∀ u ∈ b, u.length = S.unitPl) :
    (S.stepUnit deps chain b j).length = S.c ∧ ∀ u ∈ S.stepUnit deps chain b j, u.length = S.unitPl := by
  unfold stepUnit
  refine ⟨by simpa using h.1, fun u hu => ?_⟩
  rcases List.mem_or_eq_of_mem_set hu with h' | h'
  · exact h.2 u h'
  · rw [h', leBytes_length]

theorem sealOne_shape {b : List Bytes} (h : b.length = S.c ∧ ∀ u ∈ b, u.length = S.unitPl) :
    (S.sealOne deps chain b).length = S.c ∧ ∀ u ∈ S.sealOne deps chain b, u.length = S.unitPl := by
  unfold sealOne
  generalize S.rounds = n
  induction n with
  | zero => exact h
  | succ n ih =>
    rw [Function.iterate_succ_apply']
    have key : ∀ (l : List Nat) (b' : List Bytes), (b'.length = S.c ∧ ∀ u ∈ b', u.length = S.unitPl) →
        (l.foldl (S.stepUnit deps chain) b').length = S.c ∧
          ∀ u ∈ l.foldl (S.stepUnit deps chain) b', u.length = S.unitPl := by
      intro l
      induction l with
      | nil => exact fun _ h => h
      | cons j l ihl => exact fun b' h => ihl _ (stepUnit_shape h)
    exact key _ _ ih

/-- Steps on other units leave a unit alone. -/
theorem unsteps_other (l : List Nat) (i : Nat) (hi : i ∉ l) (b : List Bytes) :
    (l.foldl (S.unstepUnit dec deps chain) b).getD i [] = b.getD i [] := by
  induction l generalizing b with
  | nil => rfl
  | cons j l ih =>
    rw [List.foldl_cons, ih (fun h => hi (List.mem_cons_of_mem _ h))]
    unfold unstepUnit
    exact getD_set_ne _ _ _ _ _ (fun h => hi (by rw [h]; exact List.mem_cons_self))

theorem steps_other (l : List Nat) (i : Nat) (hi : i ∉ l) (b : List Bytes) :
    (l.foldl (S.stepUnit deps chain) b).getD i [] = b.getD i [] := by
  induction l generalizing b with
  | nil => rfl
  | cons j l ih =>
    rw [List.foldl_cons, ih (fun h => hi (List.mem_cons_of_mem _ h))]
    unfold stepUnit
    exact getD_set_ne _ _ _ _ _ (fun h => hi (by rw [h]; exact List.mem_cons_self))

/-- One round in which a zero was encoded is not undone. -/
theorem round_lost (inv : Inverse S dec) (he0 : S.enc 0 < S.p) (hd0 : dec (S.enc 0) ≠ 0) (hd1 : dec (S.enc 0) < S.p)
    {b : List Bytes} (hb : S.Canonical b) (n : Nat) (hn : n ≤ S.c)
    (hz : ∃ i < n, S.encoderInput deps chain ((List.range i).foldl (S.stepUnit deps chain) b) i = 0) :
    ∃ i < n, ((List.range n).reverse.foldl (S.unstepUnit dec deps chain)
      ((List.range n).foldl (S.stepUnit deps chain) b)).getD i [] ≠ b.getD i [] := by
  have hcan : ∀ m, S.Canonical ((List.range m).foldl (S.stepUnit deps chain) b) := by
    intro m
    induction m with
    | zero => exact hb
    | succ m ih =>
      rw [List.range_succ, List.foldl_append, List.foldl_cons, List.foldl_nil]
      by_cases h0 : S.encoderInput deps chain ((List.range m).foldl (S.stepUnit deps chain) b) m = 0
      · unfold encoderInput at h0
        generalize (List.range m).foldl (S.stepUnit deps chain) b = s at ih h0
        obtain ⟨h1, h2⟩ := ih
        unfold stepUnit
        refine ⟨by simpa using h1, fun u hu => ?_⟩
        rcases List.mem_or_eq_of_mem_set hu with h | h
        · exact h2 u h
        · rw [h, h0, leBytes_length, leNat_leBytes (lt_of_lt_of_le he0 inv.fits)]
          exact ⟨rfl, he0⟩
      · exact canonical_step inv ih h0
  induction n with
  | zero => obtain ⟨i, hi, -⟩ := hz; omega
  | succ n ih =>
    have e1 : (List.range (n + 1)).foldl (S.stepUnit deps chain) b =
        S.stepUnit deps chain ((List.range n).foldl (S.stepUnit deps chain) b) n := by
      rw [List.range_succ, List.foldl_append, List.foldl_cons, List.foldl_nil]
    have e2 : ∀ x, (List.range (n + 1)).reverse.foldl (S.unstepUnit dec deps chain) x =
        (List.range n).reverse.foldl (S.unstepUnit dec deps chain) (S.unstepUnit dec deps chain x n) := by
      intro x
      rw [List.range_succ, List.reverse_append]
      rfl
    rw [e1, e2]
    set s := (List.range n).foldl (S.stepUnit deps chain) b with hs
    by_cases h0 : S.encoderInput deps chain s n = 0
    · refine ⟨n, by omega, ?_⟩
      rw [unsteps_other _ _ (by simp)]
      have hsn : s.getD n [] = b.getD n [] := steps_other _ _ (by simp) _
      have hsl : s.length = S.c := (hcan n).1
      have hmem : s.getD n [] ∈ s := by
        rw [List.getD_eq_getElem?_getD, List.getElem?_eq_getElem (by omega)]
        exact List.getElem_mem _
      obtain ⟨g1, g2⟩ := (hcan n).2 _ hmem
      rw [← hsn]
      have hns : n < s.length := by omega
      clear_value s
      unfold stepUnit unstepUnit
      rw [maskInput_set (inv.other n (by omega)), getD_set_self s _ _ _ hns, List.set_set, getD_set_self s _ _ _ hns]
      unfold encoderInput at h0
      have hm := inv.hash (S.maskInput deps chain s n)
      generalize leNat (S.H (S.maskInput deps chain s n)) = m at hm h0
      rw [h0, leNat_leBytes (lt_of_lt_of_le he0 inv.fits)]
      intro h
      have hv := congrArg leNat h
      rw [leNat_leBytes (lt_of_lt_of_le (Nat.mod_lt _ inv.p_pos) inv.fits)] at hv
      have hk : ((dec (S.enc 0) + S.p - m) % S.p + m) % S.p = 0 := by rw [hv]; exact h0
      rw [Nat.mod_add_mod, Nat.sub_add_cancel (by omega), Nat.add_mod_right, Nat.mod_eq_of_lt hd1] at hk
      exact hd0 hk
    · rw [unstep_step inv (hcan n) (by omega) h0]
      obtain ⟨i, hi, hz⟩ := hz
      have hin : i < n := by
        rcases Nat.lt_or_ge i n with h | h
        · exact h
        · have : i = n := by omega
          rw [this] at hz
          exact absurd hz h0
      obtain ⟨j, hj, h⟩ := ih (by omega) ⟨i, hin, hz⟩
      exact ⟨j, by omega, h⟩

end Sealing

section

variable {H : Bytes → Bytes} (hH : ∀ x, (H x).length = 32) {params : PosPara}
  {p n c : Nat} (cfg : Config params p n c) (hmode : params.modeL = 0) (hn : LongCountOk n params.cntL) (hS : ShortModeOk params n c)

include hH cfg hmode hn hS in
/-- What unsealing makes of block `k` of a sealed file: unseal what was sealed, with the same
dependency blocks and the same chaining value, whether or not zeros were met. -/
theorem unseal_sealed_block {file iv : Bytes} (hlen : n * params.blockPl ≤ file.length)
    (hu : UnitsBelow params p n c file) {S : Sealing} (hd : describes S H params p n c iv) :
    ∃ st out, sealFile H params file (p : Int) iv = .ok st ∧ unsealFile H params st.file (p : Int) iv = .ok out ∧
      out.length = file.length ∧ (∀ i, n * params.blockPl ≤ i → out[i]? = file[i]?) ∧
      ∀ k < n, S.Canonical (plainUnits params c file k) ∧
        let deps := S.dependencies (S.sealedBlocks (plainUnits params c file) k) k
        let chain := S.chaining (S.sealedBlocks (plainUnits params c file) k) k
        plainUnits params c out k = S.unsealOne ((undelay p)^[params.vdeRounds]) deps chain
          (S.sealOne deps chain (plainUnits params c file k)) := by
  have hL : LongModeOk params n := ⟨fun _ => hn, fun h => by omega, fun h => by omega⟩
  have hlo : longOf H params n = hashLong H n params.cntL := by unfold longOf; rw [if_pos hmode]
  have huo : unsealLongOf H params n = hashLong H n params.cntL := by unfold unsealLongOf; rw [if_pos hmode]
  have hupl : 0 < params.unitPl := by rw [cfg.unit_pl]; omega
  obtain ⟨st, g1, g2, -, g3, g4⟩ := C64_seal_exact H hH params p n c cfg hL hS file iv hlen hu S hd
  obtain ⟨out, h1, h2, h3, h4⟩ := C79_unseal_exact H hH params p n c cfg hL hS st.file iv (by omega) S (by
    obtain ⟨d1, d2, d3, d4, d5, d6, d7, d8, d9⟩ := hd
    exact ⟨d1, d3, d4, d5, d6, d7, by rw [d8, hlo, huo], d9⟩)
  have hpl : params.unitPl = S.unitPl := hd.2.2.2.1.symm
  have hcc : c = S.c := hd.2.2.2.2.1.symm
  have hcan : ∀ k < n, S.Canonical (plainUnits params c file k) := by
    intro k hk
    refine ⟨by rw [plainUnits_length]; exact hcc, fun u hu' => ⟨by rw [plainUnits_unit _ _ _ _ u hu']; exact hpl, ?_⟩⟩
    unfold plainUnits at hu'
    obtain ⟨j, hj, rfl⟩ := List.mem_map.mp hu'
    have hj := List.mem_range.mp hj
    rw [hd.2.2.1]
    apply hu
    calc k * c + j < (k + 1) * c := by rw [Nat.add_mul]; omega
      _ ≤ n * c := Nat.mul_le_mul_right _ hk
  have hone : ∀ k < n, (S.sealedBlocks (plainUnits params c file) n).getD k [] =
      S.sealOne (S.dependencies (S.sealedBlocks (plainUnits params c file) k) k)
        (S.chaining (S.sealedBlocks (plainUnits params c file) k) k) (plainUnits params c file k) := by
    intro k hk
    rw [sealedBlocks_getD S _ (Nat.lt_succ_self k) (by omega : k + 1 ≤ n)]
    show (S.sealedBlocks (plainUnits params c file) k ++ [_]).getD k [] = _
    rw [List.getD_eq_getElem?_getD, List.getElem?_append_right (by rw [sealedBlocks_length]), sealedBlocks_length]
    simp
  have hblk : ∀ k < n, plainUnits params c st.file k = (S.sealedBlocks (plainUnits params c file) n).getD k [] := by
    intro k hk
    refine plainUnits_of_flatten cfg.layout hupl (fun u hu' => ?_) (g2 k hk)
    rw [hone k hk] at hu'
    rw [(Sealing.sealOne_shape ⟨(hcan k hk).1, fun u hu => ((hcan k hk).2 u hu).1⟩).2 u hu', hpl]
  refine ⟨st, out, g1, h1, by omega, fun i hi => by rw [h4 i hi, g4 i hi], fun k hk => ⟨hcan k hk, ?_⟩⟩
  simp only []
  have hub : plainUnits params c out k =
      S.unsealedBlock ((undelay p)^[params.vdeRounds]) (plainUnits params c st.file) k := by
    refine plainUnits_of_flatten cfg.layout hupl (fun u hu' => ?_) (h2 k hk)
    rw [(unsealOne_shape (by rw [plainUnits_length]; exact hcc) (fun u hu => by
      rw [plainUnits_unit _ _ _ _ u hu]; exact hpl)).2 u hu', hpl]
  rw [hub]
  unfold Sealing.unsealedBlock
  simp only []
  have hprev : ∀ i < k, plainUnits params c st.file i = (S.sealedBlocks (plainUnits params c file) k).getD i [] := by
    intro i hi
    rw [hblk i (by omega), sealedBlocks_getD S _ hi (by omega : k ≤ n)]
  rw [hblk k hk, hone k hk]
  by_cases hk0 : k = 0
  · subst hk0
    have : S.long = hashLong H n params.cntL := by rw [hd.2.2.2.2.2.2.2.1, hlo]
    unfold Sealing.dependencies Sealing.chaining
    rw [this]
    unfold hashLong
    simp
  · have hid := hprev (k - 1) (by omega)
    have hdep : (S.long (S.H (plainUnits params c st.file (k - 1)).flatten) k).map (plainUnits params c st.file) =
        S.dependencies (S.sealedBlocks (plainUnits params c file) k) k := by
      unfold Sealing.dependencies
      rw [hid]
      apply List.map_congr_left
      intro i hi
      apply hprev
      have : S.long = hashLong H n params.cntL := by rw [hd.2.2.2.2.2.2.2.1, hlo]
      rw [this] at hi
      unfold hashLong at hi
      rw [if_neg hk0] at hi
      have hi := List.mem_toFinset.mp ((Finset.mem_sort _).mp hi)
      obtain ⟨j, -, rfl⟩ := List.mem_map.mp (List.mem_of_mem_take hi)
      exact Nat.mod_lt _ (by omega)
    rw [hdep, if_neg hk0]
    unfold Sealing.chaining
    rw [if_neg hk0, hid]

end

/-- A zero met by the encoder only harms the block in which it is met: every other block is
restored. -/
theorem C92_loss_is_local (H : Bytes → Bytes) (hH : ∀ x, (H x).length = 32) (params : PosPara)
    (p n c : Nat) (cfg : Config params p n c) (hmode : params.modeL = 0) (hn : LongCountOk n params.cntL) (hS : ShortModeOk params n c)
    (file iv : Bytes) (hlen : n * params.blockPl ≤ file.length) (hu : UnitsBelow params p n c file)
    (S : Sealing) (hd : describes S H params p n c iv) :
    ∃ st out, sealFile H params file (p : Int) iv = .ok st ∧ unsealFile H params st.file (p : Int) iv = .ok out ∧
      out.length = file.length ∧
      ∀ k < n, BlockNoZero S (fun k => (List.range c).map
          (fun j => readFile file ((k * c + j) * params.unitPl) params.unitPl)) k →
        readFile out (k * params.blockPl) params.blockPl = readFile file (k * params.blockPl) params.blockPl := by
  obtain ⟨st, out, h1, h2, h3, -, h4⟩ := unseal_sealed_block hH cfg hmode hn hS hlen hu hd
  refine ⟨st, out, h1, h2, h3, fun k hk hz => ?_⟩
  obtain ⟨hcan, h⟩ := h4 k hk
  show blockOf params out k = blockOf params file k
  rw [← plainUnits_flatten cfg.layout, ← plainUnits_flatten cfg.layout, h]
  have inv := inverse_of hH cfg iv (longOf H params n) n
  rw [← describes_sealingOf hd] at inv
  exact congrArg List.flatten (Sealing.unsealOne_sealOne inv hcan hz).2

/-- With one sealing round exactly: a block is restored if and only if no zero was met in it. -/
theorem C92_one_round_exact (H : Bytes → Bytes) (hH : ∀ x, (H x).length = 32) (params : PosPara)
    (p n c : Nat) (cfg : Config params p n c) (hmode : params.modeL = 0) (hn : LongCountOk n params.cntL) (hS : ShortModeOk params n c)
    (hr : params.sealRounds = 1) (ht : 0 < params.vdeRounds)
    (file iv : Bytes) (hlen : n * params.blockPl ≤ file.length) (hu : UnitsBelow params p n c file)
    (S : Sealing) (hd : describes S H params p n c iv) :
    ∃ st out, sealFile H params file (p : Int) iv = .ok st ∧ unsealFile H params st.file (p : Int) iv = .ok out ∧
      ∀ k < n, (readFile out (k * params.blockPl) params.blockPl = readFile file (k * params.blockPl) params.blockPl ↔
        BlockNoZero S (fun k => (List.range c).map
          (fun j => readFile file ((k * c + j) * params.unitPl) params.unitPl)) k) := by
  obtain ⟨st, out, h1, h2, h3, -, h4⟩ := unseal_sealed_block hH cfg hmode hn hS hlen hu hd
  refine ⟨st, out, h1, h2, fun k hk => ?_⟩
  obtain ⟨hcan, h⟩ := h4 k hk
  have inv := inverse_of hH cfg iv (longOf H params n) n
  rw [← describes_sealingOf hd] at inv
  have hp5 : 5 ≤ p := by
    have h1 := cfg.above_units
    have h2 : 256 ^ 1 ≤ 256 ^ params.unitL := Nat.pow_le_pow_right (by norm_num) cfg.unit_pos
    omega
  obtain ⟨z1, z2, z3⟩ := undelay_encode_zero cfg.prime cfg.mod4 hp5 ht
  rw [show encode p params.vdeRounds = S.enc from hd.2.1.symm] at z1 z2 z3
  have hp : S.p = p := hd.2.2.1
  have z2 : (undelay p)^[params.vdeRounds] (S.enc 0) < S.p := by omega
  rw [← hp] at z3
  have hrounds : S.rounds = 1 := by rw [hd.2.2.2.2.2.1, hr]
  constructor
  · intro heq
    by_contra hz
    have hz : ¬ S.NoZeroEncoded (S.dependencies (S.sealedBlocks (plainUnits params c file) k) k)
        (S.chaining (S.sealedBlocks (plainUnits params c file) k) k) (plainUnits params c file k) := hz
    rw [Sealing.noZeroEncoded_iff, hrounds] at hz
    push Not at hz
    obtain ⟨r, hr0, i, hi, hz⟩ := hz
    have hr0 : r = 0 := by omega
    subst hr0
    obtain ⟨j, hj, hne⟩ := Sealing.round_lost inv z3 z1 z2 hcan S.c (Nat.le_refl _) ⟨i, hi, hz⟩
    apply hne
    unfold Sealing.unsealOne Sealing.sealOne at h
    rw [hrounds] at h
    simp only [Function.iterate_one] at h
    rw [← h]
    congr 1
    exact plainUnits_congr cfg.layout heq
  · intro hz
    show blockOf params out k = blockOf params file k
    rw [← plainUnits_flatten cfg.layout, ← plainUnits_flatten cfg.layout, h]
    exact congrArg List.flatten (Sealing.unsealOne_sealOne inv hcan hz).2

/-- At most as many blocks are lost as zeros were encoded. -/
theorem C92_at_most (H : Bytes → Bytes) (hH : ∀ x, (H x).length = 32) (params : PosPara)
    (p n c : Nat) (cfg : Config params p n c) (hmode : params.modeL = 0) (hn : LongCountOk n params.cntL) (hS : ShortModeOk params n c)
    (file iv : Bytes) (hlen : n * params.blockPl ≤ file.length) (hu : UnitsBelow params p n c file) :
    ∃ st out, sealFile H params file (p : Int) iv = .ok st ∧ unsealFile H params st.file (p : Int) iv = .ok out ∧
      ((Finset.range n).filter (fun k => readFile out (k * params.blockPl) params.blockPl ≠
        readFile file (k * params.blockPl) params.blockPl)).card ≤ st.log.count 0 := by
  have hd : describes (sealingOf H params p c iv (longOf H params n) (shortOf H params n c)) H params p n c iv :=
    ⟨rfl, rfl, rfl, rfl, rfl, rfl, rfl, rfl, rfl⟩
  have hL : LongModeOk params n := ⟨fun _ => hn, fun h => by omega, fun h => by omega⟩
  obtain ⟨st, out, h1, h2, -, h4⟩ := C92_loss_is_local H hH params p n c cfg hmode hn hS file iv hlen hu _ hd
  obtain ⟨st', g1, g2, -⟩ := C85_encodings H hH params p n c cfg hL hS file iv hlen hu _ hd
  rw [h1] at g1
  cases g1
  refine ⟨st, out, h1, h2, ?_⟩
  set S := sealingOf H params p c iv (longOf H params n) (shortOf H params n c) with hSd
  rw [g2]
  unfold Sealing.allEncoderInputs
  have h4 : ∀ k < n, readFile out (k * params.blockPl) params.blockPl ≠ readFile file (k * params.blockPl) params.blockPl →
      0 ∈ S.encoderInputs (S.dependencies (S.sealedBlocks (plainUnits params c file) k) k)
        (S.chaining (S.sealedBlocks (plainUnits params c file) k) k) (plainUnits params c file k) := by
    intro k hk hne
    by_contra h0
    exact hne (h4 k hk fun v hv hv0 => h0 (hv0 ▸ hv))
  show _ ≤ ((List.range n).flatMap (fun i => S.encoderInputs
    (S.dependencies (S.sealedBlocks (plainUnits params c file) i) i)
    (S.chaining (S.sealedBlocks (plainUnits params c file) i) i) (plainUnits params c file i))).count 0
  have key : ∀ (f : Nat → List Nat) (m : Nat), (∀ k < m, readFile out (k * params.blockPl) params.blockPl ≠
      readFile file (k * params.blockPl) params.blockPl → 0 ∈ f k) →
      ((Finset.range m).filter (fun k => readFile out (k * params.blockPl) params.blockPl ≠
        readFile file (k * params.blockPl) params.blockPl)).card ≤ ((List.range m).flatMap f).count 0 := by
    intro f m
    induction m with
    | zero => intro _; simp
    | succ m ih =>
      intro h
      have ih := ih fun k hk => h k (by omega)
      rw [Finset.range_add_one, Finset.filter_insert, List.range_succ, List.flatMap_append, List.count_append]
      simp only [List.flatMap_cons, List.flatMap_nil, List.append_nil]
      by_cases hm : readFile out (m * params.blockPl) params.blockPl ≠ readFile file (m * params.blockPl) params.blockPl
      · rw [if_pos hm]
        have := List.count_pos_iff.mpr (h m (by omega) hm)
        have := Finset.card_insert_le m ((Finset.range m).filter (fun k => readFile out (k * params.blockPl) params.blockPl ≠
          readFile file (k * params.blockPl) params.blockPl))
        omega
      · rw [if_neg hm]
        omega
  exact key _ n h4

/-- Unit `j` of block `k` of what `copy_and_compress` makes of a file. -/
theorem compressed_unit {params : PosPara} {p n c : Nat} (cfg : Config params p n c) {F plain : Bytes}
    (h : copyAndCompress F params.dataL params.unitL params.unitPl = .ok plain) {k j : Nat} (hk : k < n) (hj : j < c) :
    readFile plain (k * (c * params.unitL) + j * params.unitL) params.unitL =
      readFile F ((k * c + j) * params.unitPl) params.unitL := by
  have hdl : params.dataL = (n * c) * params.unitL := by rw [cfg.data, cfg.block, Nat.mul_assoc]
  rw [hdl, C15_compress_any F (n * c) params.unitL params.unitPl cfg.unit_pos (by rw [cfg.unit_pl]; omega)] at h
  cases h
  have hlt : k * c + j < n * c := by
    have : (k + 1) * c ≤ n * c := Nat.mul_le_mul_right _ hk
    rw [Nat.add_mul] at this
    omega
  have h1 := flatten_drop_take ((List.range (n * c)).map (fun i => readFile F (i * params.unitPl) params.unitL))
    params.unitL (k * c + j) (by simpa using hlt) (by
      intro u hu
      obtain ⟨i, -, rfl⟩ := List.mem_map.mp hu
      exact readFile_length _ _ _) []
  rw [List.append_nil, List.getElem_map, List.getElem_range] at h1
  rw [show k * (c * params.unitL) + j * params.unitL = (k * c + j) * params.unitL by
    rw [Nat.add_mul, Nat.mul_assoc], h1]

/-- For the owner of the original: after store and retrieve every block in which no zero was met is
restored, and every challenge round on such blocks is accepted when it is answered from the sealed
file. -/
theorem C92_retrieval_and_rounds (H Hs : Bytes → Bytes) (hH : ∀ x, (H x).length = 32) (hHs : ∀ x, (Hs x).length = 32)
    (params : PosPara) (p n c : Nat) (cfg : Config params p n c) (hL : params.modeL = 0) (hS : ShortModeOk params n c)
    (hn : LongCountOk n params.cntL) (origin pubdata iv : Bytes) (hload : loadData pubdata = .ok ((p : Int), iv))
    (hlen : origin.length = params.dataL) (padded : Bytes) (st : SealState)
    (hpad : copyAndPad origin params.dataL params.unitL = .ok padded)
    (hseal : sealFile H params padded (p : Int) iv = .ok st)
    (leaves : List Bytes) (tree : MerkleTree) (root : Bytes)
    (hm : generateMerkleTreeFromData Hs st.ids = .ok (leaves, tree, root))
    (S : Sealing) (hd : describes S H params p n c iv) :
    let good := BlockNoZero S (fun k => (List.range c).map
      (fun j => readFile padded ((k * c + j) * params.unitPl) params.unitPl))
    ∃ out plain, unsealFile H params st.file (p : Int) iv = .ok out ∧
      copyAndCompress out params.dataL params.unitL params.unitPl = .ok plain ∧ plain.length = params.dataL ∧
      (∀ k < n, good k → Restored params origin plain k) ∧
      ∀ (r : UInt8) (indices : List Nat), indices.Pairwise (· < ·) → indices ≠ [] → (∀ k ∈ indices, k < n ∧ good k) →
        AcceptedFrom H Hs params origin pubdata leaves tree root st.file r indices := by
  intro good
  have hSok := hS
  have hLok : LongModeOk params n := ⟨fun _ => hn, fun h => by omega, fun h => by omega⟩
  obtain ⟨pd, e1, e2, e3, e4⟩ := padded_unitsBelow cfg hlen
  rw [hpad] at e1
  cases e1
  obtain ⟨st', out, h1, h2, h3, h4⟩ := C92_loss_is_local H hH params p n c cfg hL hn hSok padded iv (by omega) e3 S hd
  rw [hseal] at h1
  cases h1
  obtain ⟨st', g1, -, g2, g3, -⟩ := C64_seal_exact H hH params p n c cfg hLok hSok padded iv (by omega) e3 S hd
  rw [hseal] at g1
  cases g1
  obtain ⟨out', plain, f1, f2, f3, f4⟩ := C91_any_file H Hs hH hHs params p n c cfg hL hS hn origin pubdata iv hload
    st.ids (by rw [g2]; simp) leaves tree root hm st.file (by omega)
  rw [h2] at f1
  cases f1
  have hrest : ∀ k < n, good k → Restored params origin plain k := by
    intro k hk hg
    unfold Restored
    rw [cfg.block, readFile_units_iff]
    intro j hj
    rw [compressed_unit cfg f2 hk hj, compressed_unit cfg e4 hk hj]
    have hb := h4 k hk hg
    rw [cfg.block_pl, readFile_units_iff] at hb
    have hb := hb j hj
    rw [show k * (c * params.unitPl) + j * params.unitPl = (k * c + j) * params.unitPl by
      rw [Nat.add_mul, Nat.mul_assoc]] at hb
    have a1 := readFile_readFile out ((k * c + j) * params.unitPl) params.unitPl 0 params.unitL (by rw [cfg.unit_pl]; omega)
    have a2 := readFile_readFile padded ((k * c + j) * params.unitPl) params.unitPl 0 params.unitL (by rw [cfg.unit_pl]; omega)
    rw [Nat.add_zero] at a1 a2
    rw [← a1, ← a2, hb]
  refine ⟨out, plain, h2, f2, f3, hrest, fun r indices hs hne hk => ?_⟩
  obtain ⟨resp, r1, r2, -⟩ := f4 r indices hs hne (fun k h => (hk k h).1)
  exact ⟨resp, r1, r2.mpr fun k h => hrest k (hk k h).1 (hk k h).2⟩

/-- A file of three blocks whose middle block is zero, a hash whose value is always zero: one zero is
encoded; the outer blocks are restored, the middle one is not; the round on the outer blocks is
accepted, the one on the middle block is not. -/
example : (match copyAndPad (List.replicate 63 1 ++ zeros 63 ++ List.replicate 63 2) 189 63 with
    | .ok padded => (match sealFile (fun _ => zeros 32) (toyParams 3 1 0 0 1 1 1) padded P_512 [1, 2, 3] with
      | .ok st => (match generateMerkleTreeFromData toyHash st.ids,
            unsealFile (fun _ => zeros 32) (toyParams 3 1 0 0 1 1 1) st.file P_512 [1, 2, 3] with
        | .ok (leaves, tree, root), .ok out => (match copyAndCompress out 189 63 64 with
          | .ok plain =>
            let origin : Bytes := List.replicate 63 1 ++ zeros 63 ++ List.replicate 63 2
            let round : List Nat → R (Option Unit) := fun indices => do
              let resp ← proverRespond (fun _ => zeros 32) (toyParams 3 1 0 0 1 1 1) st.file tree 7 indices
              verifierCheck (fun _ => zeros 32) toyHash (toyParams 3 1 0 0 1 1 1) origin
                (saveData (zeros 300) P_512 [1, 2, 3]) leaves root 7 indices resp 0 []
            decide (st.log.count 0 = 1 ∧ Restored (toyParams 3 1 0 0 1 1 1) origin plain 0
              ∧ ¬ Restored (toyParams 3 1 0 0 1 1 1) origin plain 1
              ∧ Restored (toyParams 3 1 0 0 1 1 1) origin plain 2
              ∧ readFile out 0 64 = readFile padded 0 64 ∧ readFile out 64 64 ≠ readFile padded 64 64
              ∧ readFile out 128 64 = readFile padded 128 64
              ∧ round [0, 2] = .ok (some ()) ∧ round [1] ≠ .ok (some ()))
          | .error _ => false)
        | _, _ => false)
      | .error _ => false)
    | .error _ => false) = true := by decide +kernel

/-- Meets the hypotheses of `C92_one_round_exact`: the same file and hash; block 1 is the one lost. -/
example (iv : Bytes) : ∃ p : Nat, (p : Int) = P_512 ∧
    ∃ st out, sealFile (fun _ => zeros 32) (toyParams 2 1 0 0 1 1 1) (zeros 63 ++ [0] ++ List.replicate 63 2 ++ [0]) (p : Int) iv = .ok st ∧
      unsealFile (fun _ => zeros 32) (toyParams 2 1 0 0 1 1 1) st.file (p : Int) iv = .ok out ∧
      readFile out 0 64 ≠ zeros 64 ∧ readFile out 64 64 = List.replicate 63 2 ++ [0] := by
  obtain ⟨p, hp, cfg⟩ := toy_config 2 1 0 0 1 1 1 (by norm_num)
  have hp0 : p = P_512.toNat := by omega
  have hcan : ∀ j < 2, leNat (readFile (zeros 63 ++ [0] ++ List.replicate 63 2 ++ [0]) (j * 64) 64) < p := by
    rw [hp0]
    decide +kernel
  have hd : describes (sealingOf (fun _ => zeros 32) (toyParams 2 1 0 0 1 1 1) p 1 iv
      (longOf (fun _ => zeros 32) (toyParams 2 1 0 0 1 1 1) 2) (shortOf (fun _ => zeros 32) (toyParams 2 1 0 0 1 1 1) 2 1))
      (fun _ => zeros 32) (toyParams 2 1 0 0 1 1 1) p 2 1 iv :=
    ⟨rfl, rfl, rfl, rfl, rfl, rfl, rfl, rfl, rfl⟩
  obtain ⟨st, out, h1, h2, h3⟩ := C92_one_round_exact (fun _ => zeros 32) (fun _ => zeros_length 32) (toyParams 2 1 0 0 1 1 1) p 2 1 cfg
    rfl (by omega) (hashModes_ok (n := 2) (c := 1) rfl rfl (by omega) (by omega)).2 rfl (by decide)
    (zeros 63 ++ [0] ++ List.replicate 63 2 ++ [0]) iv (by decide +kernel) hcan _ hd
  have hin : ∀ (deps : List (List Bytes)) (chain : Bytes) (b : List Bytes),
      (sealingOf (fun _ => zeros 32) (toyParams 2 1 0 0 1 1 1) p 1 iv
        (longOf (fun _ => zeros 32) (toyParams 2 1 0 0 1 1 1) 2) (shortOf (fun _ => zeros 32) (toyParams 2 1 0 0 1 1 1) 2 1)).encoderInputs
        deps chain b = [leNat (b.getD 0 []) % p] := by
    intro deps chain b
    show [(leNat (b.getD 0 []) + leNat (zeros 32)) % p] = _
    rw [show leNat (zeros 32) = 0 by decide +kernel, Nat.add_zero]
  refine ⟨p, hp, st, out, h1, h2, fun h => ?_, ?_⟩
  · have := (h3 0 (by omega)).mp (h.trans (by decide +kernel))
    refine this 0 ?_ rfl
    rw [hin, List.mem_singleton]
    show 0 = leNat (readFile (zeros 63 ++ [0] ++ List.replicate 63 2 ++ [0]) 0 64) % p
    rw [show leNat (readFile (zeros 63 ++ [0] ++ List.replicate 63 2 ++ [0]) 0 64) = 0 by decide +kernel, Nat.zero_mod]
  · refine ((h3 1 (by omega)).mpr ?_).trans (by decide +kernel)
    intro v hv
    rw [hin, List.mem_singleton] at hv
    rw [hv]
    show leNat (readFile (zeros 63 ++ [0] ++ List.replicate 63 2 ++ [0]) 64 64) % p ≠ 0
    rw [Nat.mod_eq_of_lt (hcan 1 (by omega))]
    decide +kernel

end PoS
