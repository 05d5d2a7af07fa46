import Verif.Properties.Binding
import Verif.Properties.Replica

/-
C124: there are no updates in place – changing one block of the original changes the sealed file from
that block to its end.
-/

namespace PoS

/-- The first unit of a sealed block is the encoding of the first unit of the padded block plus the number
in the first mask. -/
theorem first_unit_mask {H : Bytes → Bytes} (hH : ∀ x, (H x).length = 32) {params : PosPara} {p n c : Nat}
    (cfg : Config params p n c) (hp : 256 ^ params.unitL + 256 ^ 32 ≤ p) (hr : params.sealRounds = 1)
    (hL : LongModeOk params n) (hS : ShortModeOk params n c) {origin padded iv : Bytes} (hlen : origin.length = params.dataL)
    (hpad : copyAndPad origin params.dataL params.unitL = .ok padded) {S : Sealing} (hd : describes S H params p n c iv)
    {plain : Nat → List Bytes}
    (hplain : plain = fun k => (List.range c).map (fun j => readFile padded ((k * c + j) * params.unitPl) params.unitPl))
    {st : SealState} (h : sealFile H params padded (p : Int) iv = .ok st) {k : Nat} (hk : k < n) :
    readFile st.file (k * params.blockPl) params.unitPl = leBytes params.unitPl (encode p params.vdeRounds
      (leNat (readFile padded ((k * c + 0) * params.unitPl) params.unitPl) + leNat (H (firstMask S plain k)))) := by
  obtain ⟨pd, g1, g2, g3, -⟩ := padded_unitsBelow cfg hlen
  rw [hpad] at g1
  cases g1
  obtain ⟨s, a1, hb, -⟩ := C64_seal_exact H hH params p n c cfg hL hS padded iv (by omega) g3 S hd
  rw [h] at a1; cases a1
  have F := C86_first_round H hH params p n c cfg hp origin iv padded hlen hpad S hd
    (S.dependencies (S.sealedBlocks plain k) k) (S.chaining (S.sealedBlocks plain k) k) k 0 hk cfg.c_pos
  simp only at F
  have hpk : ∀ k, (List.range c).map (fun j => readFile padded ((k * c + j) * params.unitPl) params.unitPl) = plain k := by
    intro k; rw [hplain]
  rw [← hplain] at hb
  simp only [hpk] at F
  have hupl : 0 < params.unitPl := by rw [cfg.unit_pl]; omega
  have len : ∀ k, (plain k).length = c := fun k => by simp [hplain]
  have e := sealOne_first S (by rw [hd.2.2.2.2.2.1, hr]) (by rw [hd.2.2.2.2.1]; exact cfg.c_pos)
    (S.dependencies (S.sealedBlocks plain k) k) (S.chaining (S.sealedBlocks plain k) k) (plain k)
    (by rw [hd.2.2.2.2.1]; exact len k)
  rw [← sealedBlocks_last S plain hk] at e
  have e3 : S.sealState (S.dependencies (S.sealedBlocks plain k) k) (S.chaining (S.sealedBlocks plain k) k) (plain k) 0 0 =
    plain k := rfl
  rw [e3] at F
  rw [F, hd.2.2.2.1, hd.2.1] at e
  have hfl := hb k hk
  cases hcase : (S.sealedBlocks plain n).getD k [] with
  | nil =>
    rw [hcase] at e
    have := congrArg List.length e
    rw [leBytes_length] at this
    simp at this
    omega
  | cons u us =>
    rw [hcase] at e hfl
    have e : u = _ := e
    have hul : u.length = params.unitPl := by rw [e, leBytes_length]
    have hle : params.unitPl ≤ params.blockPl := by
      rw [cfg.block_pl]
      exact Nat.le_mul_of_pos_left _ cfg.c_pos
    apply List.ext_getElem?
    intro i
    have hi := congrArg (fun l => l[i]?) hfl
    simp only [readFile_getElem?, List.flatten_cons] at hi ⊢
    by_cases hlt : i < params.unitPl
    · rw [if_pos (by omega), List.getElem?_append_left (by omega), e] at hi
      rw [if_pos hlt, hi]
      rfl
    · rw [if_neg hlt, List.getElem?_eq_none]
      rw [leBytes_length]; omega

/-- Equal ranges have equal beginnings. -/
theorem readFile_prefix {a b : Bytes} {o l m : Nat} (hm : m ≤ l) (h : readFile a o l = readFile b o l) :
    readFile a o m = readFile b o m := by
  apply List.ext_getElem?
  intro i
  have hi := congrArg (fun l => l[i]?) h
  simp only [readFile_getElem?] at hi ⊢
  by_cases hlt : i < m
  · rw [if_pos (by omega), if_pos (by omega)] at hi
    rw [if_pos hlt, if_pos hlt, hi]
  · rw [if_neg hlt, if_neg hlt]

/-- Two originals whose first different block is block `q` and whose later blocks begin with the same unit, sealed
in one round with the same key and initial vector: the sealed blocks and the identifiers before `q` are the
same, the sealed block `q` differs, every sealed block behind it differs in its first unit, and all identifiers
from `q` on differ – unless two different strings hashed at the same place in the two runs (the inputs of the
first mask of a block, or a sealed block) have the same digest. -/
theorem C124_update (H : Bytes → Bytes) (hH : ∀ x, (H x).length = 32) (hz : ∀ x, H x ≠ zeros 32) (params : PosPara)
    (p n c : Nat) (cfg : Config params p n c) (hp : 256 ^ params.unitL + 256 ^ 32 ≤ p) (hr : params.sealRounds = 1)
    (hL : LongModeOk params n) (hS : ShortModeOk params n c) (origin origin' padded padded' iv : Bytes)
    (hlen : origin.length = params.dataL) (hlen' : origin'.length = params.dataL)
    (hpad : copyAndPad origin params.dataL params.unitL = .ok padded)
    (hpad' : copyAndPad origin' params.dataL params.unitL = .ok padded') (q : Nat) (hq : q < n)
    (hbefore : ∀ k < q, readFile origin (k * params.blockL) params.blockL = readFile origin' (k * params.blockL) params.blockL)
    (hne : readFile origin (q * params.blockL) params.blockL ≠ readFile origin' (q * params.blockL) params.blockL)
    (hafter : ∀ k, q < k → k < n →
      readFile origin (k * params.blockL) params.unitL = readFile origin' (k * params.blockL) params.unitL)
    (S : Sealing) (hd : describes S H params p n c iv) (plain plain' : Nat → List Bytes)
    (hplain : plain = fun k => (List.range c).map (fun j => readFile padded ((k * c + j) * params.unitPl) params.unitPl))
    (hplain' : plain' = fun k => (List.range c).map (fun j => readFile padded' ((k * c + j) * params.unitPl) params.unitPl))
    (hmask : ∀ k, q < k → k < n → H (firstMask S plain k) = H (firstMask S plain' k) →
      firstMask S plain k = firstMask S plain' k)
    (st st' : SealState) (h : sealFile H params padded (p : Int) iv = .ok st)
    (h' : sealFile H params padded' (p : Int) iv = .ok st')
    (hblock : ∀ k, q ≤ k → k < n → H (readFile st.file (k * params.blockPl) params.blockPl) =
        H (readFile st'.file (k * params.blockPl) params.blockPl) →
      readFile st.file (k * params.blockPl) params.blockPl = readFile st'.file (k * params.blockPl) params.blockPl) :
    (∀ k < q, readFile st.file (k * params.blockPl) params.blockPl = readFile st'.file (k * params.blockPl) params.blockPl ∧
      st.ids[k]? = st'.ids[k]?) ∧
    readFile st.file (q * params.blockPl) params.blockPl ≠ readFile st'.file (q * params.blockPl) params.blockPl ∧
    (∀ k, q < k → k < n →
      readFile st.file (k * params.blockPl) params.unitPl ≠ readFile st'.file (k * params.blockPl) params.unitPl) ∧
    ∀ k, q ≤ k → k < n → st.ids[k]? ≠ st'.ids[k]? := by
  have hlog := one_round_log hH hz cfg hp hr hL hS hlen hpad h
  have hlog' := one_round_log hH hz cfg hp hr hL hS hlen' hpad' h'
  obtain ⟨q', hq', x1, x2, x3, x4, -⟩ := C121_identifiers H hH params p n c cfg hL hS origin origin' padded padded' iv
    hlen hlen' hpad hpad' st st' h h' hlog hlog' (fun e => hne (by rw [e]))
  obtain rfl : q = q' := by
    rcases Nat.lt_trichotomy q q' with hlt | heq | hgt
    · exact absurd (x1 q hlt) hne
    · exact heq
    · exact absurd (hbefore q' hgt) x2
  have u := fun k (hk : k < n) => first_unit_mask hH cfg hp hr hL hS hlen hpad hd hplain h hk
  have u' := fun k (hk : k < n) => first_unit_mask hH cfg hp hr hL hS hlen' hpad' hd hplain' h' hk
  have hle : params.unitPl ≤ params.blockPl := by
    rw [cfg.block_pl]
    exact Nat.le_mul_of_pos_left _ cfg.c_pos
  have hin : ∀ k < n, k * c + 0 < n * c := fun k hk =>
    calc k * c + 0 < (k + 1) * c := by rw [Nat.add_mul]; have := cfg.c_pos; omega
      _ ≤ n * c := Nat.mul_le_mul_right _ hk
  have hdl : params.dataL = (n * c) * params.unitL := by rw [cfg.data, cfg.block, Nat.mul_assoc]
  -- the padded first units
  have same : ∀ k, q < k → k < n → readFile padded ((k * c + 0) * params.unitPl) params.unitPl =
      readFile padded' ((k * c + 0) * params.unitPl) params.unitPl := by
    intro k hqk hk
    obtain ⟨pd, f1, -, f3, -⟩ := C15_pad_compress origin params.unitL (n * c) cfg.unit_pos (by rw [hlen, hdl])
    obtain ⟨pd', f1', -, f3', -⟩ := C15_pad_compress origin' params.unitL (n * c) cfg.unit_pos (by rw [hlen', hdl])
    rw [← hdl, hpad] at f1
    cases f1
    rw [← hdl, hpad'] at f1'
    cases f1'
    rw [cfg.unit_pl, f3 _ (hin k hk), f3' _ (hin k hk)]
    have := hafter k hqk hk
    rw [cfg.block, ← Nat.mul_assoc] at this
    rw [Nat.add_zero, this]
  have inv := inverse_of hH cfg iv (longOf H params n) n
  rw [← describes_sealingOf hd] at inv
  have masks : ∀ k, q < k → k < n →
      readFile st.file (k * params.blockPl) params.unitPl = readFile st'.file (k * params.blockPl) params.unitPl →
      firstMask S plain k = firstMask S plain' k := by
    intro k hqk hk he
    apply hmask k hqk hk
    rw [u k hk, u' k hk, ← same k hqk hk] at he
    have hlt := padded_units_small cfg hlen hpad (hin k hk)
    have bound : ∀ x, 0 < leNat (H x) ∧ leNat (H x) < 256 ^ 32 := by
      intro x
      refine ⟨Nat.pos_of_ne_zero (fun h0 => hz x ?_), by have := leNat_lt (H x); rwa [hH] at this⟩
      rw [eq_leBytes (hH _) h0]
      decide +kernel
    obtain ⟨x1, x2⟩ := bound (firstMask S plain k)
    obtain ⟨y1, y2⟩ := bound (firstMask S plain' k)
    generalize leNat (readFile padded ((k * c + 0) * params.unitPl) params.unitPl) = v at he hlt
    have l1 := inv.enc_lt (v + leNat (H (firstMask S plain k))) (by omega) (by rw [hd.2.2.1]; omega)
    have l2 := inv.enc_lt (v + leNat (H (firstMask S plain' k))) (by omega) (by rw [hd.2.2.1]; omega)
    have d1 := inv.dec_enc (v + leNat (H (firstMask S plain k))) (by omega) (by rw [hd.2.2.1]; omega)
    have d2 := inv.dec_enc (v + leNat (H (firstMask S plain' k))) (by omega) (by rw [hd.2.2.1]; omega)
    rw [hd.2.1] at l1 l2 d1 d2
    rw [hd.2.2.1] at l1 l2
    have he := congrArg leNat he
    rw [leNat_leBytes (lt_of_lt_of_le l1 cfg.fits), leNat_leBytes (lt_of_lt_of_le l2 cfg.fits)] at he
    rw [he, d2] at d1
    exact leNat_inj (by rw [hH, hH]) (by omega)
  obtain ⟨pd, g1, g2, g3, -⟩ := padded_unitsBelow cfg hlen
  rw [hpad] at g1
  cases g1
  obtain ⟨pd', g1', g2', g3', -⟩ := padded_unitsBelow cfg hlen'
  rw [hpad'] at g1'
  cases g1'
  obtain ⟨s, a1, a2, a3, -⟩ := C64_seal_exact H hH params p n c cfg hL hS padded iv (by omega) g3 S hd
  obtain ⟨s', b1, b2, b3, -⟩ := C64_seal_exact H hH params p n c cfg hL hS padded' iv (by omega) g3' S hd
  rw [h] at a1; cases a1
  rw [h'] at b1; cases b1
  rw [← hplain] at a2
  rw [← hplain'] at b2
  have all : ∀ d, q + d < n →
      readFile st.file ((q + d) * params.blockPl) params.blockPl ≠ readFile st'.file ((q + d) * params.blockPl) params.blockPl ∧
      (0 < d → readFile st.file ((q + d) * params.blockPl) params.unitPl ≠
        readFile st'.file ((q + d) * params.blockPl) params.unitPl) := by
    intro d
    induction d with
    | zero => exact fun _ => ⟨x4, fun h0 => absurd h0 (by omega)⟩
    | succ d ih =>
      intro hk
      obtain ⟨ih, -⟩ := ih (by omega)
      have key : readFile st.file ((q + (d + 1)) * params.blockPl) params.unitPl ≠
          readFile st'.file ((q + (d + 1)) * params.blockPl) params.unitPl := by
        intro he
        have hm := masks (q + (d + 1)) (by omega) hk he
        rw [← Nat.add_assoc] at hm
        unfold firstMask Sealing.maskInput Sealing.chaining at hm
        simp only [if_true, Nat.add_eq_zero_iff, one_ne_zero, and_false, if_false, Nat.add_sub_cancel] at hm
        have hids := List.append_inj_right' hm (by rw [hd.1, hH, hH])
        rw [hd.1, ← sealedBlocks_getD S plain (Nat.lt_succ_self (q + d)) (by omega : q + d + 1 ≤ n),
          ← sealedBlocks_getD S plain' (Nat.lt_succ_self (q + d)) (by omega : q + d + 1 ≤ n), ← a2 (q + d) (by omega),
          ← b2 (q + d) (by omega)] at hids
        exact ih (hblock (q + d) (by omega) (by omega) hids)
      exact ⟨fun e => key (readFile_prefix hle e), fun _ => key⟩
  refine ⟨x3, x4, fun k hqk hk => ?_, fun k hqk hk e => ?_⟩
  · have := (all (k - q) (by omega)).2 (by omega)
    rwa [show q + (k - q) = k by omega] at this
  · have := (all (k - q) (by omega)).1
    rw [show q + (k - q) = k by omega] at this
    rw [a3, b3, List.getElem?_map, List.getElem?_map, List.getElem?_range hk] at e
    exact this (hblock k hqk hk (Option.some.inj e))

/-- A hash that keeps the last byte and is never zero. -/
def tailHash (x : Bytes) : Bytes := 1 :: (zeros 30 ++ [x.getLast?.getD 0])

/-- Meets the hypotheses: two blocks of one unit each, of which the first is changed; the second sealed block
changes with it. -/
example : ∃ p : Nat, (p : Int) = P_512 ∧ ∃ padded padded' st st',
    copyAndPad (List.replicate 63 1 ++ List.replicate 63 2) 126 63 = .ok padded ∧
    copyAndPad (List.replicate 63 3 ++ List.replicate 63 2) 126 63 = .ok padded' ∧
    sealFile tailHash (toyParams 2 1 0 0 1 1 1) padded (p : Int) [7] = .ok st ∧
    sealFile tailHash (toyParams 2 1 0 0 1 1 1) padded' (p : Int) [7] = .ok st' ∧
    readFile st.file 64 64 ≠ readFile st'.file 64 64 := by
  obtain ⟨p, hp, cfg⟩ := toy_config 2 1 0 0 1 1 1 (by norm_num)
  have hH : ∀ x, (tailHash x).length = 32 := by
    intro x
    simp [tailHash, zeros]
  have hz : ∀ x, tailHash x ≠ zeros 32 := by
    intro x e
    have e : (1 : UInt8) = 0 := (List.cons.inj e).1
    cases e
  have hbig : 256 ^ (toyParams 2 1 0 0 1 1 1).unitL + 256 ^ 32 ≤ p := by
    have : p = P_512.toNat := by rw [← hp]; rfl
    rw [this]
    show 256 ^ 63 + 256 ^ 32 ≤ _
    decide +kernel
  obtain ⟨hL, hS⟩ := hashModes_ok (params := toyParams 2 1 0 0 1 1 1) (n := 2) (c := 1) rfl rfl
    (Or.inl (by norm_num)) (Or.inl (by norm_num))
  set origin : Bytes := List.replicate 63 1 ++ List.replicate 63 2 with ho
  set origin' : Bytes := List.replicate 63 3 ++ List.replicate 63 2 with ho'
  have hlen : origin.length = (toyParams 2 1 0 0 1 1 1).dataL := by rw [ho]; decide +kernel
  have hlen' : origin'.length = (toyParams 2 1 0 0 1 1 1).dataL := by rw [ho']; decide +kernel
  obtain ⟨padded, g1, g2, g3, -⟩ := padded_unitsBelow cfg (origin := origin) hlen
  obtain ⟨padded', g1', g2', g3', -⟩ := padded_unitsBelow cfg (origin := origin') hlen'
  have D : describes (sealingOf tailHash (toyParams 2 1 0 0 1 1 1) p 1 [7] (longOf tailHash (toyParams 2 1 0 0 1 1 1) 2)
      (shortOf tailHash (toyParams 2 1 0 0 1 1 1) 2 1)) tailHash (toyParams 2 1 0 0 1 1 1) p 2 1 [7] :=
    ⟨rfl, rfl, rfl, rfl, rfl, rfl, rfl, rfl, rfl⟩
  obtain ⟨st, a1, a2, -⟩ := C64_seal_exact tailHash hH _ p 2 1 cfg hL hS padded [7] g2.ge g3 _ D
  obtain ⟨st', b1, b2, -⟩ := C64_seal_exact tailHash hH _ p 2 1 cfg hL hS padded' [7] g2'.ge g3' _ D
  refine ⟨p, hp, padded, padded', st, st', g1, g1', a1, b1, ?_⟩
  -- the run, computed
  have run : (match copyAndPad (List.replicate 63 1 ++ List.replicate 63 2) 126 63,
      copyAndPad (List.replicate 63 3 ++ List.replicate 63 2) 126 63 with
    | .ok x, .ok y => (match sealFile tailHash (toyParams 2 1 0 0 1 1 1) x P_512 [7],
        sealFile tailHash (toyParams 2 1 0 0 1 1 1) y P_512 [7] with
      | .ok s, .ok s' => decide ((readFile s.file 0 64).getLast?.getD 0 ≠ (readFile s'.file 0 64).getLast?.getD 0 ∧
          (readFile s.file 64 64).getLast?.getD 0 ≠ (readFile s'.file 64 64).getLast?.getD 0)
      | _, _ => false)
    | _, _ => false) = true := by decide +kernel
  have g1c : copyAndPad (List.replicate 63 1 ++ List.replicate 63 2) 126 63 = .ok padded := g1
  have g1c' : copyAndPad (List.replicate 63 3 ++ List.replicate 63 2) 126 63 = .ok padded' := g1'
  rw [g1c, g1c'] at run
  simp only [] at run
  rw [hp] at a1 b1
  rw [a1, b1] at run
  simp only [decide_eq_true_eq] at run
  rw [← hp] at a1 b1
  obtain ⟨r0, r1⟩ := run
  have last : ∀ x y, tailHash x = tailHash y → x.getLast?.getD 0 = y.getLast?.getD 0 := by
    intro x y e
    have e := (List.cons.inj e).2
    have e := List.append_cancel_left e
    exact (List.cons.inj e).1
  have tail : ∀ (X x : Bytes), (X ++ tailHash x).getLast?.getD 0 = x.getLast?.getD 0 := by
    intro X x
    have : X ++ tailHash x = (X ++ 1 :: zeros 30) ++ [x.getLast?.getD 0] := by simp [tailHash]
    rw [this, List.getLast?_append]
    rfl
  have key := C124_update tailHash hH hz _ p 2 1 cfg hbig rfl hL hS origin origin' padded padded' [7] hlen hlen' g1 g1' 0
    (by norm_num) (fun k hk => absurd hk (by omega)) (by rw [ho, ho']; decide +kernel) (by
      intro k h1 h2
      obtain rfl : k = 1 := by omega
      rw [ho, ho']; decide +kernel) _ D _ _ rfl rfl (by
      intro k h1 h2 e
      obtain rfl : k = 1 := by omega
      have e := last _ _ e
      unfold firstMask Sealing.maskInput Sealing.chaining at e
      simp only [if_true, one_ne_zero, if_false, Nat.sub_self] at e
      have A := a2 0 (by norm_num)
      have B := b2 0 (by norm_num)
      rw [sealedBlocks_getD _ _ (Nat.lt_succ_self 0) (by norm_num : 0 + 1 ≤ 2)] at A B
      rw [show (sealingOf tailHash (toyParams 2 1 0 0 1 1 1) p 1 [7] (longOf tailHash (toyParams 2 1 0 0 1 1 1) 2)
        (shortOf tailHash (toyParams 2 1 0 0 1 1 1) 2 1)).H = tailHash from rfl, tail, tail, ← A, ← B] at e
      exact absurd e r0) st st' a1 b1 (by
      intro k h1 h2 e
      have e := last _ _ e
      rcases (by omega : k = 0 ∨ k = 1) with rfl | rfl
      · exact absurd e r0
      · exact absurd e r1)
  exact key.2.2.1 1 (by norm_num) (by norm_num)

end PoS
