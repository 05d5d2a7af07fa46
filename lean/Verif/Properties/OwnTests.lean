import Verif.Model.OwnTests
import Verif.Properties.Encoding
import Verif.Properties.UnitSize
import Verif.Properties.Merkle
import Verif.Properties.CircuitShape
import Verif.Properties.Space

/-
C120: the project's own tests.
-/

namespace PoS

set_option linter.unusedSectionVars false

/-! ### The delay encoding -/

theorem check_loop (n : Nat) (P : Nat → Bool) :
    ((∀ s < n, P s = true) → forUp n (fun s (_ : Unit) => check! (P s)) () = .ok ()) ∧
    ((∃ s < n, P s = false) → forUp n (fun s (_ : Unit) => check! (P s)) () = .error .assertion) := by
  induction n with
  | zero => exact ⟨fun _ => rfl, fun ⟨s, h, _⟩ => absurd h (by omega)⟩
  | succ n ih =>
    rw [forUp_succ]
    constructor
    · intro h
      rw [ih.1 (fun s hs => h s (by omega)), bind_ok]
      unfold check!
      rw [if_pos (h n (by omega))]
    · rintro ⟨s, hs, h⟩
      by_cases e : ∃ s < n, P s = false
      · rw [ih.2 e, bind_error]
      · have hall : ∀ s < n, P s = true := fun s hs => by
          by_contra hne
          exact e ⟨s, hs, by simpa using hne⟩
        obtain rfl : s = n := by
          by_contra hne
          have := hall s (by omega)
          rw [h] at this; cases this
        rw [ih.1 hall, bind_ok]
        unfold check!
        rw [if_neg (by rw [h]; decide)]

theorem leNat_bytes_zero_iff (f : Nat → UInt8) (n : Nat) :
    leNat ((List.range n).map f) = 0 ↔ ∀ i < n, f i = 0 := by
  rw [show (0 : Nat) = leNat (zeros n) from (leNat_zeros n).symm]
  constructor
  · intro h i hi
    have := leNat_inj (by simp [zeros]) h
    have h2 : ((List.range n).map f)[i]? = (zeros n)[i]? := by rw [this]
    rw [List.getElem?_map, List.getElem?_range hi] at h2
    simpa [zeros, List.getElem?_replicate, hi] using h2
  · intro h
    congr 1
    apply List.ext_getElem?
    intro i
    by_cases hi : i < n
    · rw [List.getElem?_map, List.getElem?_range hi]
      simp [zeros, List.getElem?_replicate, hi, h i hi]
    · rw [List.getElem?_eq_none (by simp; omega), List.getElem?_eq_none (by simp [zeros]; omega)]

/-- The `num_bigint` round trip over the whole residue range, two rounds or more. -/
theorem num_round_iff {p : Nat} (hp : p.Prime) (h34 : p % 4 = 3) (h3 : 3 < p) (t x : Nat) (ht : 2 ≤ t) (hx : x < p) :
    Num.slothInv (Num.sloth (x : Int) (p : Int) t) (p : Int) t = (x : Int) ↔ x ≠ 0 := by
  rw [← C10_only_zero hp h34 h3 t (by omega) x hx, num_sloth_eq]
  have : ∃ z : Nat, Rug.sloth (x : Int) (p : Int) t = (z : Int) ∧ 0 < z ∧ z < p := by
    rcases Nat.eq_zero_or_pos x with h | h
    · subst h
      obtain ⟨z, h1, h2, h3, -⟩ := rug_sloth_round hp h34 (t - 2) 2 (by omega) (by omega)
      exact ⟨z, by rw [Int.natCast_zero, (rug_sloth_zero h34 t).2.2 ht]; exact h1, h2, h3⟩
    · obtain ⟨z, h1, h2, h3, -⟩ := rug_sloth_round hp h34 t x h hx
      exact ⟨z, h1, h2, h3⟩
  obtain ⟨z, h1, h2, h3⟩ := this
  rw [h1, num_slothInv_eq hp h34 t z h2 h3]

/-- The two randomised tests of the delay encoding: they pass exactly when no sample is all zeros, and
fail their assertion otherwise; so they are flaky, with one failing sample among `256^127` resp.
`256^15`. -/
theorem C120_sloth_tests (draw : Nat → Nat → UInt8) :
    ((∀ s < 10000, ∃ i < 127, draw s i ≠ 0) → rugSlothTest draw = .ok ()) ∧
    ((∃ s < 10000, ∀ i < 127, draw s i = 0) → rugSlothTest draw = .error .assertion) ∧
    ((∀ s < 1000, ∃ i < 15, draw s i ≠ 0) → numSlothTest draw = .ok ()) ∧
    ((∃ s < 1000, ∀ i < 15, draw s i = 0) → numSlothTest draw = .error .assertion) := by
  obtain ⟨⟨p, hp, hpr⟩, -⟩ := C54_large_primes
  obtain ⟨-, ⟨r, hr, hrr⟩, -⟩ := C54_primes
  have hp34 : p % 4 = 3 := by
    have := C54_mod_four P_1024 (by simp)
    rw [← hp] at this; exact_mod_cast this
  have hr34 : r % 4 = 3 := by
    have := C54_mod_four P_128 (by simp)
    rw [← hr] at this; exact_mod_cast this
  have hplo : 256 ^ 127 < p := by
    have : (256 : Int) ^ 127 < P_1024 := by decide +kernel
    rw [← hp] at this; exact_mod_cast this
  have hrlo : 256 ^ 15 < r := by
    have : (256 : Int) ^ 15 < P_128 := by decide +kernel
    rw [← hr] at this; exact_mod_cast this
  have hb : ∀ n s, leNat ((List.range n).map (draw s)) < 256 ^ n := fun n s => by
    have := leNat_lt ((List.range n).map (draw s))
    rwa [List.length_map, List.length_range] at this
  have A : ∀ s, (decide ((leNat ((List.range (1024 / 8 - 1)).map (draw s)) : Int) =
      Rug.slothInv (Rug.sloth (leNat ((List.range (1024 / 8 - 1)).map (draw s)) : Int) P_1024 10) P_1024 10)) = true ↔
      ¬ ∀ i < 127, draw s i = 0 := fun s => by
    rw [decide_eq_true_iff, ← leNat_bytes_zero_iff, eq_comm, ← hp]
    exact C10_only_zero hpr hp34 (by omega) 10 (by omega) _ (lt_trans (hb 127 s) hplo)
  have B : ∀ s, (decide ((leNat ((List.range (128 / 8 - 1)).map (draw s)) : Int) =
      Num.slothInv (Num.sloth (leNat ((List.range (128 / 8 - 1)).map (draw s)) : Int) P_128 10) P_128 10)) = true ↔
      ¬ ∀ i < 15, draw s i = 0 := fun s => by
    rw [decide_eq_true_iff, ← leNat_bytes_zero_iff, eq_comm, ← hr]
    exact num_round_iff hrr hr34 (by omega) 10 _ (by omega) (lt_trans (hb 15 s) hrlo)
  refine ⟨fun h => (check_loop 10000 _).1 (fun s hs => (A s).mpr ?_), fun h => (check_loop 10000 _).2 ?_,
    fun h => (check_loop 1000 _).1 (fun s hs => (B s).mpr ?_), fun h => (check_loop 1000 _).2 ?_⟩
  · obtain ⟨i, hi, hne⟩ := h s hs
    exact fun h0 => hne (h0 i hi)
  · obtain ⟨s, hs, h0⟩ := h
    refine ⟨s, hs, ?_⟩
    rw [Bool.eq_false_iff]
    exact fun ht => (A s).mp ht h0
  · obtain ⟨i, hi, hne⟩ := h s hs
    exact fun h0 => hne (h0 i hi)
  · obtain ⟨s, hs, h0⟩ := h
    refine ⟨s, hs, ?_⟩
    rw [Bool.eq_false_iff]
    exact fun ht => (B s).mp ht h0

example : (∀ s < 10000, ∃ i < 127, (fun _ _ => 7 : Nat → Nat → UInt8) s i ≠ 0) ∧
    (∃ s < 1000, ∀ i < 15, (fun s _ => if s = 3 then 0 else 7 : Nat → Nat → UInt8) s i = 0) :=
  ⟨fun _ _ => ⟨0, by omega, (by decide : (7 : UInt8) ≠ 0)⟩, 3, by omega, fun _ _ => rfl⟩

/-- The tests without random numbers: the seven that are switched on pass, the one that is commented
out panics in the subtraction of the second round. -/
theorem C120_fixed_tests : rugVdeTest = .ok () ∧ numVdeTest = .ok () ∧ longMode1Test = .ok () ∧ longMode2Test = .ok () ∧
    shortMode1Test = .ok () ∧ bytesBitsTest = .ok () ∧ bitsUsizeTest = .ok () ∧ shortMode2Test = .error .overflow := by
  obtain ⟨⟨p, hp, hpr⟩, -⟩ := C54_large_primes
  obtain ⟨-, -, -, ⟨r, hr, hrr⟩⟩ := C54_primes
  have hp34 : p % 4 = 3 := by
    have := C54_mod_four P_1024 (by simp)
    rw [← hp] at this; exact_mod_cast this
  have hr34 : r % 4 = 3 := by
    have := C54_mod_four P_512 (by simp)
    rw [← hr] at this; exact_mod_cast this
  have hphi : p ≤ 256 ^ (1024 / 8) := by
    have : P_1024 ≤ (256 : Int) ^ (1024 / 8) := by decide +kernel
    rw [← hp] at this; exact_mod_cast this
  have hrhi : r ≤ 256 ^ 64 := by
    have : P_512 ≤ (256 : Int) ^ 64 := by decide +kernel
    rw [← hr] at this; exact_mod_cast this
  refine ⟨?_, ?_, by decide, by decide, by decide, by decide, by decide, by decide⟩
  · refine (check_loop 10 _).1 (fun s _ => ?_)
    rw [decide_eq_true_iff, ← hp]
    have h0 : 0 < leNat (List.replicate 120 (1 : UInt8)) := by decide +kernel
    have h1 : (leNat (List.replicate 120 (1 : UInt8)) : Int) < P_1024 := by decide +kernel
    rw [← hp] at h1
    exact (rug_vde_spec hpr hp34 (t := 3) (mode := "sloth") h0 (by exact_mod_cast h1) hphi).2.2.2.2.symm
  · have hx : (List.replicate (128 * 10) 1 : Bytes) = (List.replicate 20 (List.replicate 64 1 : Bytes)).flatten := by decide +kernel
    have h0 : 0 < leNat (List.replicate 64 (1 : UInt8)) := by decide +kernel
    have h1 : (leNat (List.replicate 64 (1 : UInt8)) : Int) < P_512 := by decide +kernel
    rw [← hr] at h1
    obtain ⟨y, e1, -, e2⟩ := C12_num_vde_round_trip hrr hr34 (List.replicate 20 (List.replicate 64 1 : Bytes)) 64 3 "sloth"
      (by omega) hrhi (fun u hu => by
        rw [List.eq_of_mem_replicate hu]
        exact ⟨by simp, h0, by exact_mod_cast h1⟩)
    rw [hr] at e1 e2
    have := (check_loop 10 (fun _ => true)).1 (fun _ _ => rfl)
    rw [← this]
    unfold numVdeTest
    refine forUp_congr (fun s st _ => ?_)
    simp only [hx, e1, e2, bind_ok, decide_true]

/-! ### The Merkle tree -/

theorem challenges_decide (draw : Nat → Nat) (n hi fuel : Nat) (hhi : 0 < hi) :
    (n ≤ ((List.range fuel).map (fun i => draw i % hi)).toFinset.card →
      ∃ out, createChallenges draw n 0 hi fuel = .ok (some out)) ∧
    (((List.range fuel).map (fun i => draw i % hi)).toFinset.card < n → createChallenges draw n 0 hi fuel = .ok none) := by
  constructor
  · intro h
    refine C24_terminates draw n 0 hi fuel hhi ((List.range fuel).map (fun i => draw i % hi)).toFinset.toList
      (Finset.nodup_toList _) (by rw [Finset.length_toList]; exact h) (fun x hx => ?_)
    rw [Finset.mem_toList, List.mem_toFinset, List.mem_map] at hx
    obtain ⟨j, hj, rfl⟩ := hx
    exact ⟨j, List.mem_range.mp hj, by simp⟩
  · intro h
    cases hc : createChallenges draw n 0 hi fuel with
    | error e => exact absurd ((C24_panics_iff draw n 0 hi fuel).1.mp ⟨e, hc⟩).2 (by omega)
    | ok o =>
      cases o with
      | none => rfl
      | some out =>
        obtain ⟨m, hm, e, -, hn⟩ := C24_exact draw n 0 hi fuel out hc
        rw [e, Finset.length_sort] at hn
        have hsub : ((List.range m).map (fun i => 0 + draw i % (hi - 0))).toFinset ⊆
            ((List.range fuel).map (fun i => draw i % hi)).toFinset := by
          intro x hx
          rw [List.mem_toFinset, List.mem_map] at hx ⊢
          obtain ⟨j, hj, rfl⟩ := hx
          exact ⟨j, List.mem_range.mpr (lt_of_lt_of_le (List.mem_range.mp hj) hm), by simp⟩
        exact absurd (Finset.card_le_card hsub) (by omega)

section
variable (H : Bytes → Bytes) (hH : ∀ x, (H x).length = 32) (file : Bytes) (d l k m : Nat) (hl : 0 < l) (hd : 0 < d) (hk : 0 < k)
  (hm : (d + l - 1) / l = m) (draw : Nat → Nat → Nat) (fuel : Nat)
include hH hl hd hk hm

/-- One sample of the test of the Merkle tree. -/
theorem merkle_sample (s : Nat) :
    (k ≤ ((List.range fuel).map (fun i => draw s i % m)).toFinset.card →
      (do
        let t ← generateMerkleTreeFromFile H file d l
        let c ← createChallenges (draw s) k 0 t.1.length fuel
        match c with
        | none => pure none
        | some indices => do
          let proof ← generateMerkleProof indices t.2.1
          verifyMerkleProof H proof t.2.2 indices t.1
          pure (some ()) : R (Option Unit)) = .ok (some ())) ∧
    (((List.range fuel).map (fun i => draw s i % m)).toFinset.card < k →
      (do
        let t ← generateMerkleTreeFromFile H file d l
        let c ← createChallenges (draw s) k 0 t.1.length fuel
        match c with
        | none => pure none
        | some indices => do
          let proof ← generateMerkleProof indices t.2.1
          verifyMerkleProof H proof t.2.2 indices t.1
          pure (some ()) : R (Option Unit)) = .ok none) := by
  obtain ⟨tree, root, ht⟩ := C30_leaves H file d l hl hd
  rw [hm] at ht
  have hm0 : 0 < m := by rw [← hm]; exact Nat.div_pos (by omega) hl
  set leaves := (List.range m).map (fun i => H (readFile file ((i + 1) * l) l)) with hleaves
  have hlen : leaves.length = m := by rw [hleaves, List.length_map, List.length_range]
  set values := (List.range m).map (fun i => readFile file ((i + 1) * l) l) with hvalues
  have hvlen : values.length = m := by rw [hvalues, List.length_map, List.length_range]
  have hlv : leaves = values.map H := by rw [hleaves, hvalues, List.map_map]; rfl
  have hdata : generateMerkleTreeFromData H values = .ok (leaves, tree, root) := by
    have ht' := ht
    unfold generateMerkleTreeFromFile at ht'
    rw [if_neg (by omega)] at ht'
    have e1 : ((stepBy d 0 d l).map (fun i => readFile file (i + l) l)).map H = leaves := by
      simp only [] at ht'
      split at ht'
      · exact congrArg Prod.fst (Except.ok.inj ht')
      · cases ht'
    simp only [e1] at ht'
    unfold generateMerkleTreeFromData
    simp only [← hlv]
    exact ht'
  clear_value leaves values
  obtain ⟨c1, c2⟩ := challenges_decide (draw s) k m fuel hm0
  constructor
  · intro h
    obtain ⟨out, ho⟩ := c1 h
    obtain ⟨o1, o2, o3⟩ := C24_sorted_distinct _ _ _ _ _ _ ho
    obtain ⟨l', t', r', proof, g1, g2, g3, g4⟩ := C31_completeness H hH values
      (by intro h; rw [h, List.length_nil] at hvlen; omega) out o1 (by intro h; rw [h, List.length_nil] at o2; omega)
      (fun k hk => by rw [hvlen]; exact (o3 k hk).2)
    rw [hdata] at g1
    cases g1
    simp only [ht, bind_ok, hlen, ho, g3, g4]
    rfl
  · intro h
    simp only [ht, bind_ok, hlen, c2 h]
    rfl

theorem merkle_loop (n : Nat) :
    ((∀ s < n, k ≤ ((List.range fuel).map (fun i => draw s i % m)).toFinset.card) →
      forUp n (fun s (st : Option Unit) =>
        match st with
        | none => pure none
        | some () => (do
        let t ← generateMerkleTreeFromFile H file d l
        let c ← createChallenges (draw s) k 0 t.1.length fuel
        match c with
        | none => pure none
        | some indices => do
          let proof ← generateMerkleProof indices t.2.1
          verifyMerkleProof H proof t.2.2 indices t.1
          pure (some ()) : R (Option Unit))) (some ()) = .ok (some ())) ∧
    ((∃ s < n, ((List.range fuel).map (fun i => draw s i % m)).toFinset.card < k) →
      forUp n (fun s (st : Option Unit) =>
        match st with
        | none => pure none
        | some () => (do
        let t ← generateMerkleTreeFromFile H file d l
        let c ← createChallenges (draw s) k 0 t.1.length fuel
        match c with
        | none => pure none
        | some indices => do
          let proof ← generateMerkleProof indices t.2.1
          verifyMerkleProof H proof t.2.2 indices t.1
          pure (some ()) : R (Option Unit))) (some ()) = .ok none) := by
  induction n with
  | zero => exact ⟨fun _ => rfl, fun ⟨s, h, _⟩ => absurd h (by omega)⟩
  | succ n ih =>
    rw [forUp_succ]
    constructor
    · intro h
      rw [ih.1 (fun s hs => h s (by omega)), bind_ok]
      exact (merkle_sample H hH file d l k m hl hd hk hm draw fuel n).1 (h n (by omega))
    · rintro ⟨s, hs, h⟩
      by_cases e : ∃ s < n, ((List.range fuel).map (fun i => draw s i % m)).toFinset.card < k
      · rw [ih.2 e, bind_ok]; rfl
      · have hall : ∀ s < n, k ≤ ((List.range fuel).map (fun i => draw s i % m)).toFinset.card := fun s hs => by
          by_contra hne
          exact e ⟨s, hs, by omega⟩
        obtain rfl : s = n := by
          by_contra hne
          have := hall s (by omega)
          omega
        rw [ih.1 hall, bind_ok]
        exact (merkle_sample H hH file d l k m hl hd hk hm draw fuel s).2 h

end

/-- The test of the Merkle tree never panics, whatever file and challenges are drawn, for every hash
with 32-byte output; it ends exactly when each of the ten samples finds its ten different positions. -/
theorem C120_merkle_test (H : Bytes → Bytes) (hH : ∀ x, (H x).length = 32) (rng : Nat → UInt8) (draw : Nat → Nat → Nat)
    (fuel : Nat) :
    ((∀ s < 10, 10 ≤ ((List.range fuel).map (fun i => draw s i % 1024)).toFinset.card) →
      merkleTest H rng draw fuel = .ok (some ())) ∧
    ((∃ s < 10, ((List.range fuel).map (fun i => draw s i % 1024)).toFinset.card < 10) →
      merkleTest H rng draw fuel = .ok none) := by
  unfold merkleTest
  exact merkle_loop H hH _ (1024 * 1024 * 1024) (1024 * 1024) 10 1024 (by omega) (by omega) (by omega) (by norm_num) draw fuel 10

example : (∀ s < 10, 10 ≤ ((List.range 10).map (fun i => (fun s i => s + i : Nat → Nat → Nat) s i % 1024)).toFinset.card) ∧
    ∃ s < 10, ((List.range 10).map (fun i => (fun s i => s * i : Nat → Nat → Nat) s i % 1024)).toFinset.card < 10 := by
  decide +kernel

/-! ### The circuits -/

section
variable {F : Type} [CommRing F] {α β σ : Type}

/-- A synthesis step that succeeds in proving mode succeeds in key generation with the same values, with
the same result and shape. -/
def ToSetup (c : Syn F α) : Prop :=
  ∀ s a t, c s = .ok (a, t) → s.setup = false → ∀ s', s'.setup = true → ShapeEq s s' →
    ∃ t', c s' = .ok (a, t') ∧ t.setup = false ∧ t'.setup = true ∧ ShapeEq t t'

theorem ToSetup.bind {c : Syn F α} {f : α → Syn F β} (h : ToSetup c) (hf : ∀ a, ToSetup (f a)) : ToSetup (c >>= f) := by
  intro s a t e hs s' hs' hsh
  obtain ⟨b, u, e1, e2⟩ := run_bind_inv e
  obtain ⟨u', g1, g2, g3, g4⟩ := h s b u e1 hs s' hs' hsh
  obtain ⟨t', k1, k2⟩ := hf b u a t e2 g2 u' g3 g4
  exact ⟨t', by rw [run_bind g1]; exact k1, k2⟩

theorem ToSetup.pure (a : α) : ToSetup (pure a : Syn F α) := by
  intro s b t e hs s' hs' hsh
  cases e
  exact ⟨s', rfl, hs, hs', hsh⟩

theorem ToSetup.lift (x : R α) : ToSetup (PoS.lift x : Syn F α) := by
  intro s b t e hs s' hs' hsh
  unfold PoS.lift at e ⊢
  obtain ⟨a, h1, h2⟩ := bind_eq_ok.mp e
  cases h2
  exact ⟨s', by rw [h1, bind_ok], hs, hs', hsh⟩

theorem ToSetup.newWit (v : Option F) : ToSetup (PoS.newWit v) := by
  intro s b t e hs s' hs' hsh
  obtain ⟨sb, si, sw, sn, sm, sc⟩ := s
  obtain ⟨sb', si', sw', sn', sm', sc'⟩ := s'
  obtain ⟨h1, h2, h3⟩ := hsh
  simp only at hs hs' h1 h2 h3
  subst hs hs' h1 h2 h3
  unfold PoS.newWit at e ⊢
  simp only [Bool.false_eq_true, if_false] at e
  obtain ⟨a, -, h2⟩ := bind_eq_ok.mp e
  cases h2
  exact ⟨_, rfl, rfl, rfl, rfl, rfl, rfl⟩

theorem ToSetup.newInput (v : Option F) : ToSetup (PoS.newInput v) := by
  intro s b t e hs s' hs' hsh
  obtain ⟨sb, si, sw, sn, sm, sc⟩ := s
  obtain ⟨sb', si', sw', sn', sm', sc'⟩ := s'
  obtain ⟨h1, h2, h3⟩ := hsh
  simp only at hs hs' h1 h2 h3
  subst hs hs' h1 h2 h3
  unfold PoS.newInput at e ⊢
  simp only [Bool.false_eq_true, if_false] at e
  obtain ⟨a, -, h2⟩ := bind_eq_ok.mp e
  cases h2
  exact ⟨_, rfl, rfl, rfl, rfl, rfl, rfl⟩

theorem ToSetup.enforce (a b c : LC F) : ToSetup (PoS.enforce a b c) := by
  intro s u t e hs s' hs' hsh
  cases e
  exact ⟨_, rfl, hs, hs', hsh.1, hsh.2.1, by simp [hsh.2.2]⟩

theorem ToSetup.ite {P : Prop} [Decidable P] {c d : Syn F α} (h : ToSetup c) (h' : ToSetup d) :
    ToSetup (if P then c else d) := by
  split
  · exact h
  · exact h'

theorem ToSetup.synUp {f : Nat → σ → Syn F σ} (hf : ∀ i t, ToSetup (f i t)) (n : Nat) (t : σ) :
    ToSetup (PoS.synUp n f t) := by
  induction n with
  | zero => exact ToSetup.pure t
  | succ n ih => exact ToSetup.bind ih (fun t => hf n t)

theorem hashT_toSetup (cs : List F) (x k : VarVal F) (j : Nat) (h : VarVal F) : ToSetup (hashT cs x k j h) := by
  unfold hashT
  refine ToSetup.ite ?_ ?_
  · exact .bind (.lift _) fun _ => .bind (.newWit _) fun _ => .bind (.enforce _ _ _) fun _ => .pure _
  · exact .bind (.lift _) fun _ => .bind (.lift _) fun _ => .bind (.newWit _) fun _ => .bind (.enforce _ _ _) fun _ => .pure _

theorem mimc5HashRound_toSetup (cs : List F) (x k : VarVal F) (j : Nat) (h : VarVal F) :
    ToSetup (mimc5HashRound cs x k j h) := by
  unfold mimc5HashRound
  exact .bind (hashT_toSetup _ _ _ _ _) fun _ => .bind (.newWit _) fun _ => .bind (.enforce _ _ _) fun _ =>
    .bind (.newWit _) fun _ => .bind (.enforce _ _ _) fun _ => .bind (.lift _) fun _ => .bind (.newWit _) fun _ =>
    .bind (.enforce _ _ _) fun _ => .pure _

theorem mimc7HashRound_toSetup (cs : List F) (x k : VarVal F) (j : Nat) (h : VarVal F) :
    ToSetup (mimc7HashRound cs x k j h) := by
  unfold mimc7HashRound
  exact .bind (hashT_toSetup _ _ _ _ _) fun _ => .bind (.newWit _) fun _ => .bind (.enforce _ _ _) fun _ =>
    .bind (.newWit _) fun _ => .bind (.enforce _ _ _) fun _ => .bind (.lift _) fun _ => .bind (.newWit _) fun _ =>
    .bind (.enforce _ _ _) fun _ => .bind (.lift _) fun _ => .bind (.newWit _) fun _ =>
    .bind (.enforce _ _ _) fun _ => .pure _

theorem hashInput_toSetup {rounds : Nat} {round : VarVal F → VarVal F → Nat → VarVal F → Syn F (VarVal F)}
    (hr : ∀ x k j h, ToSetup (round x k j h)) (xs : List (Option F)) (i : Nat) (res : VarVal F) :
    ToSetup (hashInput rounds round xs i res) := by
  unfold hashInput
  exact .bind (.lift _) fun _ => .bind (.newWit _) fun _ => .bind (.newWit _) fun _ => .bind (.newWit _) fun _ =>
    .bind (.synUp (fun _ _ => hr _ _ _ _) _ _) fun _ => .bind (.lift _) fun _ => .bind (.newWit _) fun _ =>
    .bind (.enforce _ _ _) fun _ => .bind (.lift _) fun _ => .bind (.ite (.newInput _) (.newWit _)) fun _ =>
    .bind (.enforce _ _ _) fun _ => .pure _

theorem mimc5HashCircuit_toSetup (xs : List (Option F)) (key : Option F) (cs : List F) :
    ToSetup (mimc5HashCircuit xs key cs) := by
  unfold mimc5HashCircuit
  exact .ite (.lift _) (.bind (.newWit _) fun _ =>
    .bind (.synUp (fun _ _ => hashInput_toSetup (mimc5HashRound_toSetup cs) _ _ _) _ _) fun _ => .pure _)

theorem mimc7HashCircuit_toSetup (xs : List (Option F)) (key : Option F) (cs : List F) :
    ToSetup (mimc7HashCircuit xs key cs) := by
  unfold mimc7HashCircuit
  exact .ite (.lift _) (.bind (.newWit _) fun _ =>
    .bind (.synUp (fun _ _ => hashInput_toSetup (mimc7HashRound_toSetup cs) _ _ _) _ _) fun _ => .pure _)

end

section
variable {q : Nat}

/-- Completeness of the proof system: the proof made with the key of the same constraint system from a
satisfying assignment is accepted for its public inputs. -/
def ProofsComplete (prove : CS (ZMod q) → CS (ZMod q) → List (ZMod q) → Option Bool) : Prop :=
  ∀ pk s : CS (ZMod q), pk.nInst = s.nInst → pk.nWit = s.nWit → pk.cons = s.cons → Satisfies s.cons (s.inst, s.wit) →
    prove pk s s.inst = some true

theorem proofSample_eq {pk s : CS (ZMod q)} {c : Syn (ZMod q) Unit} {inputs : List (ZMod q)}
    (prove : CS (ZMod q) → CS (ZMod q) → List (ZMod q) → Option Bool) (h : c (CS.init (ZMod q) false) = .ok ((), s))
    (hs : Satisfies s.cons (s.inst, s.wit)) (hi : inputs.length = pk.nInst) :
    proofSample pk c prove inputs = .ok (match prove pk s inputs with | none => .error () | some b => .ok b) := by
  unfold proofSample
  simp only [h, bind_ok]
  rw [if_pos hs]
  unfold verifyProof
  rw [if_neg (by omega)]
  rfl

theorem testBits_eq (size x : Nat) (h : size ≤ 256) :
    testBits size x = .ok ((List.range size).map (fun i => some (x / 2 ^ i % 2))) := by
  unfold testBits
  induction size with
  | zero => rfl
  | succ n ih =>
    rw [forUp_succ, ih (by omega), bind_ok, List.range_succ, List.map_append]
    have : at! (bitsOf 256 x) n = .ok (x.testBit n) := by rw [at!_eq_ok]; exact bitsOf_getElem? _ _ _ (by omega)
    rw [this, bind_ok, Nat.testBit_eq_decide_div_mod_eq]
    have h2 : x / 2 ^ n % 2 < 2 := Nat.mod_lt _ (by norm_num)
    by_cases h : x / 2 ^ n % 2 = 1
    · simp [h]
    · have h0 : x / 2 ^ n % 2 = 0 := by omega
      simp [h0]

/-- A loop of samples with the same outcome each. -/
theorem loop_ok {n : Nat} {f : Nat → R Unit} (h : ∀ i < n, f i = .ok ()) : forUp n (fun i _ => f i) () = .ok () :=
  forUp_unit_iff.mpr h

theorem loop_error {n : Nat} {f : Nat → R Unit} {e : Panic} (hn : 0 < n) (h : f 0 = .error e) :
    forUp n (fun i _ => f i) () = .error e := by
  obtain ⟨m, rfl⟩ : ∃ m, n = m + 1 := ⟨n - 1, by omega⟩
  rw [forUp_succ']
  rw [h, bind_error]

theorem const_length (f : Nat → ZMod q) (n : Nat) : ((List.range n).map f).length = n := by simp

/-- What the circuit tests come down to: the outcome of the proofs.  `good` says that every pairing check
of a proof for the right inputs has outcome `b`. -/
theorem strict_tests [NeZero q] (prove : CS (ZMod q) → CS (ZMod q) → List (ZMod q) → Option Bool) (b : Bool)
    (good : ∀ pk s : CS (ZMod q), pk.nInst = s.nInst → pk.nWit = s.nWit → pk.cons = s.cons →
      Satisfies s.cons (s.inst, s.wit) → prove pk s s.inst = some b) (draw : Nat → ZMod q) :
    mimc3DfTest prove draw = check! b ∧ mimc5DfTest prove draw = check! b ∧ mimc5HashTest prove draw = check! b ∧
      mimc7HashTest prove draw = check! b := by
  have fin : ∀ (n : Nat) (f : Nat → R Unit), 0 < n → (∀ i < n, f i = check! b) →
      forUp n (fun i _ => f i) () = check! b := by
    intro n f hn h
    cases b with
    | true => exact loop_ok h
    | false => exact loop_error hn (h 0 hn)
  refine ⟨?_, ?_, ?_, ?_⟩
  · unfold mimc3DfTest
    have hl := const_length draw MIMC3_DF_ROUNDS
    generalize (List.range MIMC3_DF_ROUNDS).map draw = cs at hl
    obtain ⟨pk, hpk, hn, -⟩ := (C44_sound cs).2 hl
    simp only [hpk, bind_ok]
    refine fin 50 _ (by omega) (fun i _ => ?_)
    obtain ⟨s, y, e1, e2, e3, e4⟩ := (C44_complete (draw (MIMC3_DF_ROUNDS + 2 * i)) (draw (MIMC3_DF_ROUNDS + 2 * i + 1)) cs).2 hl
    have sh := (C49_shape true false pk s).1 _ _ _ _ _ hpk e1
    rw [e2, bind_ok, proofSample_eq prove e1 e4 (by rw [hn]; rfl), bind_ok, ← e3, good pk s sh.1 sh.2.1 sh.2.2 e4]
    rfl
  · unfold mimc5DfTest
    have hl := const_length draw MIMC5_DF_ROUNDS
    generalize (List.range MIMC5_DF_ROUNDS).map draw = cs at hl
    obtain ⟨pk, hpk, hn, -⟩ := (C44_sound cs).1 hl
    simp only [hpk, bind_ok]
    refine fin 1 _ (by omega) (fun i _ => ?_)
    obtain ⟨s, y, e1, e2, e3, e4⟩ := (C44_complete (draw (MIMC5_DF_ROUNDS + 2 * i)) (draw (MIMC5_DF_ROUNDS + 2 * i + 1)) cs).1 hl
    have sh := (C49_shape true false pk s).2.1 _ _ _ _ _ hpk e1
    rw [e2, bind_ok, proofSample_eq prove e1 e4 (by rw [hn]; rfl), bind_ok, ← e3, good pk s sh.1 sh.2.1 sh.2.2 e4]
    rfl
  · unfold mimc5HashTest
    have hl := const_length (fun i => draw (4 + i)) MIMC5_HASH_ROUNDS
    generalize (List.range MIMC5_HASH_ROUNDS).map (fun i => draw (4 + i)) = cs at hl
    have hx := const_length draw 3
    generalize (List.range 3).map draw = xs at hx
    obtain ⟨s, y, e1, e2, e3, e4⟩ := (C47_complete xs (draw 3) cs).1 hl
    rw [if_neg (by intro h; rw [h] at hx; cases hx)] at e3
    obtain ⟨pk, hpk, -, -, sh⟩ := mimc5HashCircuit_toSetup _ _ _ _ _ _ e1 rfl (CS.init (ZMod q) true) rfl ⟨rfl, rfl, rfl⟩
    obtain ⟨s0, e0, hn, -⟩ := C47_relation5 cs hl 3 (by omega)
    have hn' : pk.nInst = 1 := by
      rw [← hn]
      exact ((C49_shape true true pk s0).2.2.1 _ _ _ _ _ (by simp [hx]) hpk e0).1
    simp only [hpk, e2, bind_ok]
    refine fin 50 _ (by omega) (fun i _ => ?_)
    rw [proofSample_eq prove e1 e4 (by rw [hn']; rfl), bind_ok, ← e3, good pk s sh.1.symm sh.2.1.symm sh.2.2.symm e4]
    rfl
  · unfold mimc7HashTest
    have hl := const_length (fun i => draw (4 + i)) MIMC7_HASH_ROUNDS
    generalize (List.range MIMC7_HASH_ROUNDS).map (fun i => draw (4 + i)) = cs at hl
    have hx := const_length draw 3
    generalize (List.range 3).map draw = xs at hx
    obtain ⟨s, y, e1, e2, e3, e4⟩ := (C47_complete xs (draw 3) cs).2 hl
    rw [if_neg (by intro h; rw [h] at hx; cases hx)] at e3
    obtain ⟨pk, hpk, -, -, sh⟩ := mimc7HashCircuit_toSetup _ _ _ _ _ _ e1 rfl (CS.init (ZMod q) true) rfl ⟨rfl, rfl, rfl⟩
    obtain ⟨s0, e0, hn, -⟩ := C47_relation7 cs hl 3 (by omega)
    have hn' : pk.nInst = 1 := by
      rw [← hn]
      exact ((C49_shape true true pk s0).2.2.2.1 _ _ _ _ _ (by simp [hx]) hpk e0).1
    simp only [hpk, e2, bind_ok]
    refine fin 50 _ (by omega) (fun i _ => ?_)
    rw [proofSample_eq prove e1 e4 (by rw [hn']; rfl), bind_ok, ← e3, good pk s sh.1.symm sh.2.1.symm sh.2.2.symm e4]
    rfl

/-- The circuit tests of the two maps and the two hashes, whatever is drawn: with a complete proof system
they pass; if the proofs were rejected, they would fail their assertion. -/
theorem C120_circuit_tests [NeZero q] (prove : CS (ZMod q) → CS (ZMod q) → List (ZMod q) → Option Bool) (draw : Nat → ZMod q) :
    (ProofsComplete prove → mimc3DfTest prove draw = .ok () ∧ mimc5DfTest prove draw = .ok () ∧
      mimc5HashTest prove draw = .ok () ∧ mimc7HashTest prove draw = .ok ()) ∧
    ((∀ pk s inputs, prove pk s inputs = some false) → mimc3DfTest prove draw = .error .assertion ∧
      mimc5DfTest prove draw = .error .assertion ∧ mimc5HashTest prove draw = .error .assertion ∧
      mimc7HashTest prove draw = .error .assertion) :=
  ⟨fun h => strict_tests prove true h draw, fun h => strict_tests prove false (fun pk s _ _ _ _ => h pk s s.inst) draw⟩

/-- The tests of the power and the equality circuit pass whatever is drawn and whatever the verdict of
the proofs is, accepted or rejected: `is_ok` is asserted of a result whose value is the verdict.  They fail
only if verification ends in an error. -/
theorem C120_verdict_ignored [Fact q.Prime] (hq : q ≤ 2 ^ 256)
    (prove : CS (ZMod q) → CS (ZMod q) → List (ZMod q) → Option Bool) (draw : Nat → ZMod q) :
    ((∀ pk s inputs, prove pk s inputs ≠ none) → powTest prove draw = .ok () ∧ equalTest prove draw = .ok ()) ∧
    ((∀ pk s inputs, prove pk s inputs = none) → powTest prove draw = .error .assertion ∧
      equalTest prove draw = .error .assertion) := by
  have hcheck : ∀ (pk s : CS (ZMod q)) inputs, (prove pk s inputs ≠ none →
      assertIsOk (match prove pk s inputs with | none => .error () | some b => .ok b) = .ok ()) ∧
      (prove pk s inputs = none →
      assertIsOk (match prove pk s inputs with | none => .error () | some b => .ok b) = .error .assertion) := by
    intro pk s inputs
    cases prove pk s inputs with
    | none => exact ⟨fun h => absurd rfl h, fun _ => rfl⟩
    | some b => exact ⟨fun _ => rfl, fun h => by cases h⟩
  obtain ⟨pk, hpk, hn, -⟩ := C50_relation (F := ZMod q)
  obtain ⟨pk', hpk', hn', -⟩ := C60_relation (F := ZMod q) 8 (by omega) (by omega)
  have P : ∀ g : ZMod q, ∃ s : CS (ZMod q), ∃ inputs, (do
      let bits ← testBits POW_INPUT_SIZE 2
      let v ← proofSample pk (powCircuit (some g) bits) prove [g ^ 2]
      assertIsOk v : R Unit) = assertIsOk (match prove pk s inputs with | none => .error () | some b => .ok b) := by
    intro g
    obtain ⟨s, e1, e2, -⟩ := C50_complete g 2 (by norm_num)
    refine ⟨s, [g ^ 2], ?_⟩
    rw [show POW_INPUT_SIZE = 20 from rfl, testBits_eq 20 2 (by omega), bind_ok,
      proofSample_eq prove e1 e2 (by rw [hn]; rfl), bind_ok]
  have E : ∀ x2 : ZMod q, ∃ s : CS (ZMod q), ∃ inputs, (do
      let x1Bits ← slice! (bitsOf 256 x2.val) 0 8
      let x1 : ZMod q := ((x1Bits.foldr (fun b n => (if b = true then 1 else 0) + 2 * n) 0 : Nat) : ZMod q)
      let bits ← testBits EQUAL_INPUT_SIZE x2.val
      let v ← proofSample pk' (equalCircuit (some x1) (some x2) bits 8) prove [x1, x2]
      assertIsOk v : R Unit) = assertIsOk (match prove pk' s inputs with | none => .error () | some b => .ok b) := by
    intro x2
    obtain ⟨s, e1, e2, -⟩ := C60_complete (F := ZMod q) x2.val 8 (lt_of_lt_of_le (ZMod.val_lt x2) hq) (by omega) (by omega)
    refine ⟨s, [((x2.val % 2 ^ 8 : Nat) : ZMod q), x2], ?_⟩
    have hsl : slice! (bitsOf 256 x2.val) 0 8 = .ok (bitsOf 8 x2.val) := by
      unfold slice!
      rw [if_pos (by simp), List.drop_zero, Nat.sub_zero, bitsOf_take 256 8 _ (by omega)]
    have hfold : ∀ l : List Bool, l.foldr (fun b n => (if b = true then 1 else 0) + 2 * n) 0 = bitsVal l := by
      intro l
      induction l with
      | nil => rfl
      | cons b l ih => rw [List.foldr_cons, ih]; rfl
    rw [ZMod.natCast_zmod_val] at e1
    rw [hsl, bind_ok]
    simp only [hfold, bitsVal_bitsOf]
    rw [show EQUAL_INPUT_SIZE = 256 from rfl, testBits_eq 256 _ (by omega), bind_ok,
      proofSample_eq prove e1 e2 (by rw [hn']; rfl), bind_ok]
  constructor
  · intro h
    constructor
    · unfold powTest
      rw [show List.replicate POW_INPUT_SIZE (none : Option Nat) = List.replicate 20 none from rfl, hpk, bind_ok]
      refine loop_ok (fun i _ => ?_)
      obtain ⟨s, inputs, e⟩ := P (draw i)
      exact e.trans ((hcheck pk s inputs).1 (h _ _ _))
    · unfold equalTest
      rw [show List.replicate EQUAL_INPUT_SIZE (none : Option Nat) = List.replicate 256 none from rfl, hpk', bind_ok]
      refine loop_ok (fun i _ => ?_)
      obtain ⟨s, inputs, e⟩ := E (draw i)
      exact e.trans ((hcheck pk' s inputs).1 (h _ _ _))
  · intro h
    constructor
    · unfold powTest
      rw [show List.replicate POW_INPUT_SIZE (none : Option Nat) = List.replicate 20 none from rfl, hpk, bind_ok]
      refine loop_error (by omega) ?_
      obtain ⟨s, inputs, e⟩ := P (draw 0)
      exact e.trans ((hcheck pk s inputs).2 (h _ _ _))
    · unfold equalTest
      rw [show List.replicate EQUAL_INPUT_SIZE (none : Option Nat) = List.replicate 256 none from rfl, hpk', bind_ok]
      refine loop_error (by omega) ?_
      obtain ⟨s, inputs, e⟩ := E (draw 0)
      exact e.trans ((hcheck pk' s inputs).2 (h _ _ _))

end

example : ∃ prove : CS (ZMod blsR) → CS (ZMod blsR) → List (ZMod blsR) → Option Bool,
    ProofsComplete prove ∧ (∀ pk s inputs, prove pk s inputs ≠ none) ∧ blsR ≤ 2 ^ 256 ∧
    ∃ pk s, prove pk s [1] = some false :=
  ⟨fun _ s inputs => some (decide (inputs = s.inst)), fun _ _ _ _ _ _ => by simp, fun _ _ _ => by simp, by decide,
    CS.init _ true, CS.init _ false, rfl⟩

end PoS
