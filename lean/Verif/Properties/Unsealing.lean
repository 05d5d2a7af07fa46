import Verif.Proofs.UnsealExact
import Verif.Properties.Sealing

/-
What unsealing makes of any file, byte by byte: C79 (the exact result), C80 (damage stays local).
-/

namespace PoS

/-! ### C79: the unsealed file -/

/-- The long dependencies that `unseal` uses: with static dependencies the first blocks of the file,
as many as `seal` used (the list itself is ignored). -/
def unsealLongOf (H : Bytes → Bytes) (params : PosPara) (n : Nat) : Bytes → Nat → List Nat :=
  if params.modeL = 0 then hashLong H n params.cntL
  else fun _ k => List.range (staticLong params.modeL params.cntL k).length

/-- The description that belongs to a call of `unseal`. -/
def describesUnseal (S : Sealing) (H : Bytes → Bytes) (params : PosPara) (p n c : Nat) (iv : Bytes) : Prop :=
  S.H = H ∧ S.p = p ∧ S.unitPl = params.unitPl ∧ S.c = c ∧
  S.rounds = params.sealRounds ∧ S.iv = iv ∧ S.long = unsealLongOf H params n ∧ S.short = shortOf H params n c

theorem staticLong_length (mode cnt k : Nat) : (staticLong mode cnt k).length ≤ k := by
  have key : ∀ (m : Nat) (q : Nat → Bool), (∀ i, q i = true → i < k) → ((List.range m).filter q).length ≤ k := by
    intro m q hq
    have h1 : ((List.range m).filter q).Nodup := List.nodup_range.filter _
    have h2 : (List.range m).filter q ⊆ List.range k := by
      intro i hi
      exact List.mem_range.mpr (hq i (List.mem_filter.mp hi).2)
    have := (h1.subperm h2).length_le
    simpa using this
  have h2 : ∀ i, 2 ^ i < k → i < k := fun i h => lt_trans Nat.lt_two_pow_self h
  unfold staticLong
  split
  · rw [List.length_map]
    exact key _ _ (fun i hi => by have := of_decide_eq_true hi; omega)
  · split
    · rw [List.length_map]
      exact key _ _ (fun i hi => h2 i (of_decide_eq_true hi))
    · split
      · rw [List.length_map]
        exact key _ _ (fun i hi => h2 i (of_decide_eq_true hi))
      · simp

theorem unsealLongOf_is {H : Bytes → Bytes} (hH : ∀ x, (H x).length = 32) {params : PosPara} {n c : Nat}
    (hlay : Layout params n c) (ok : LongModeOk params n) :
    ∃ t, idxsLOf params n = .ok t ∧ UnsealLongIs H params n t (unsealLongOf H params n) := by
  obtain ⟨h0, h2, h3⟩ := ok
  unfold idxsLOf unsealLongOf
  by_cases hL : params.modeL = 0
  · rw [if_neg (by simp [hL]), if_pos hL]
    exact ⟨[], rfl, unsealLongIs_hash hH hL (h0 hL)⟩
  · rw [if_pos hL, if_neg hL]
    have hok := staticLong_ok (mode := params.modeL) (cnt := params.cntL) (n := n) h2 h3
    obtain ⟨t, ht, -, hti⟩ := table_of hok
    exact ⟨t, ht, unsealLongIs_table hlay hL hti (fun k _ => staticLong_length _ _ k)⟩

/-- Unsealing any file, sealed or not, in all dependency modes that work: every block of the result
is the one of the mathematical description, and nothing else in the file changes. -/
theorem C79_unseal_exact (H : Bytes → Bytes) (hH : ∀ x, (H x).length = 32) (params : PosPara)
    (p n c : Nat) (cfg : Config params p n c) (hL : LongModeOk params n) (hS : ShortModeOk params n c)
    (file iv : Bytes) (hlen : n * params.blockPl ≤ file.length)
    (S : Sealing) (hd : describesUnseal S H params p n c iv) :
    ∃ out, unsealFile H params file (p : Int) iv = .ok out ∧
      (∀ k < n, readFile out (k * params.blockPl) params.blockPl =
        (S.unsealedBlock ((undelay p)^[params.vdeRounds]) (fun k => (List.range c).map
          (fun j => readFile file ((k * c + j) * params.unitPl) params.unitPl)) k).flatten) ∧
      out.length = file.length ∧ ∀ i, n * params.blockPl ≤ i → out[i]? = file[i]? := by
  obtain ⟨tL, hl, hlong⟩ := unsealLongOf_is hH cfg.layout hL
  obtain ⟨tS, hs, hshort⟩ := shortOf_is hH cfg.c_pos hS
  obtain ⟨out, h1, h2, h3, h4⟩ := unsealLoop_exact hH cfg.keyOk cfg.layout (iv := iv) hshort hlong hlen
  have hfun : ∀ b k, S.unsealedBlock ((undelay p)^[params.vdeRounds]) b k =
      (sealingOf H params p c iv (unsealLongOf H params n) (shortOf H params n c)).unsealedBlock
        ((undelay p)^[params.vdeRounds]) b k := by
    obtain ⟨g1, g2, g3, g4, g5, g6, g7, g8⟩ := hd
    obtain ⟨_, _, _, _, _, _, _, _, _⟩ := S
    simp only at g1 g2 g3 g4 g5 g6 g7 g8
    subst g1; subst g2; subst g3; subst g4; subst g5; subst g6; subst g7; subst g8
    intro b k
    rfl
  refine ⟨out, ?_, fun k hk => ?_, h3, h4⟩
  · rw [unsealFile_eq cfg]
    unfold unsealFrom
    rw [cfg.div, bind_ok, hl, bind_ok, hs, bind_ok]
    exact h1
  · rw [hfun]
    exact h2 k hk

/-- The decoder on residues is the inverse of the delay encoding of C65, from both sides; on other
numbers it goes on as written down in `undelay`. -/
theorem C79_decoder {p : Nat} (hp : p.Prime) (h34 : p % 4 = 3) (t x : Nat) (hx0 : 0 < x) (hxp : x < p) :
    (undelay p)^[t] (encode p t x) = x ∧ encode p t ((undelay p)^[t] x) = x := by
  have he : ∀ y, 0 < y → encode p t y = (slothStep p)^[t] y := by
    intro y hy
    unfold encode
    rw [if_neg (by omega)]
  have hdec : ∀ t, 0 < (undelay p)^[t] x ∧ (undelay p)^[t] x < p := by
    intro t
    induction t with
    | zero => exact ⟨hx0, hxp⟩
    | succ t ih =>
      rw [Function.iterate_succ_apply', undelay_eq_unstep h34 ih.1 ih.2]
      exact unstep_pos_lt hp h34 ih.1 ih.2
  rw [he x hx0, he _ (hdec t).1]
  constructor
  · induction t with
    | zero => rfl
    | succ t ih =>
      obtain ⟨-, h2, h3⟩ := sloth_iterate hp h34 hx0 hxp t
      obtain ⟨-, g2, g3, g4⟩ := singleSloth_step hp h34 h2 h3
      rw [Function.iterate_succ_apply' (slothStep p), Function.iterate_succ_apply (undelay p),
        undelay_eq_unstep h34 g2 g3, g4]
      exact ih (fun y hy => by unfold encode; rw [if_neg (by omega)])
  · clear he
    induction t with
    | zero => rfl
    | succ t ih =>
      obtain ⟨h2, h3⟩ := hdec t
      rw [Function.iterate_succ_apply' (undelay p), Function.iterate_succ_apply (slothStep p),
        undelay_eq_unstep h34 h2 h3, slothStep_unique hp h34 h2 h3 rfl, ih]

/-- Meets the hypotheses: any file of 256 bytes, sealed or not; two blocks of two units, static long
dependencies (mode 1), so that the second block refers to the first. -/
example (file : Bytes) (hf : file.length = 256) :
    ∃ p : Nat, ∃ S : Sealing, ∃ out, (p : Int) = P_512 ∧ describesUnseal S toyHash (toyParams 2 2 1 0 1 1 1) p 2 2 [7] ∧
    unsealFile toyHash (toyParams 2 2 1 0 1 1 1) file (p : Int) [7] = .ok out ∧
    readFile out 128 128 = (S.unsealOne ((undelay p)^[1]) [[readFile file 0 64, readFile file 64 64]]
      (toyHash [readFile file 0 64, readFile file 64 64].flatten) [readFile file 128 64, readFile file 192 64]).flatten := by
  obtain ⟨p, hp, cfg⟩ := toy_config 2 2 1 0 1 1 1 (by norm_num)
  refine ⟨p, ⟨toyHash, id, p, 64, 2, 1, [7], unsealLongOf toyHash (toyParams 2 2 1 0 1 1 1) 2,
    shortOf toyHash (toyParams 2 2 1 0 1 1 1) 2 2⟩, ?_⟩
  obtain ⟨out, h1, h2, -, -⟩ := C79_unseal_exact toyHash (fun _ => rfl) _ p 2 2 cfg
    ⟨fun _ => (by omega), fun h => (by cases h), fun h => (by cases h)⟩
    ⟨fun _ => (by omega), fun _ => (by omega), fun h => (by cases h), fun h => (by cases h)⟩ file [7]
    (by simp [toyParams, hf]) ⟨toyHash, id, p, 64, 2, 1, [7], unsealLongOf toyHash (toyParams 2 2 1 0 1 1 1) 2,
    shortOf toyHash (toyParams 2 2 1 0 1 1 1) 2 2⟩ ⟨rfl, rfl, rfl, rfl, rfl, rfl, rfl, rfl⟩
  refine ⟨out, hp, ⟨rfl, rfl, rfl, rfl, rfl, rfl, rfl, rfl⟩, h1, ?_⟩
  exact h2 1 (by omega)

/-! ### C80: damage stays local -/

/-- If two files agree on block `k`, on the block before it and on the blocks it refers to, then
block `k` of the unsealed files is the same. -/
theorem C80_local (H : Bytes → Bytes) (hH : ∀ x, (H x).length = 32) (params : PosPara)
    (p n c : Nat) (cfg : Config params p n c) (hL : LongModeOk params n) (hS : ShortModeOk params n c)
    (f g iv : Bytes) (hf : n * params.blockPl ≤ f.length) (hg : n * params.blockPl ≤ g.length) (out out' : Bytes)
    (h : unsealFile H params f (p : Int) iv = .ok out) (h' : unsealFile H params g (p : Int) iv = .ok out')
    (k : Nat) (hk : k < n)
    (same : ∀ i, i = k ∨ i + 1 = k ∨
        i ∈ unsealLongOf H params n (H (readFile f ((k - 1) * params.blockPl) params.blockPl)) k →
      readFile f (i * params.blockPl) params.blockPl = readFile g (i * params.blockPl) params.blockPl) :
    readFile out (k * params.blockPl) params.blockPl = readFile out' (k * params.blockPl) params.blockPl := by
  obtain ⟨o, e1, e2, -, -⟩ := C79_unseal_exact H hH params p n c cfg hL hS f iv hf
    (sealingOf H params p c iv (unsealLongOf H params n) (shortOf H params n c)) ⟨rfl, rfl, rfl, rfl, rfl, rfl, rfl, rfl⟩
  obtain ⟨o', e1', e2', -, -⟩ := C79_unseal_exact H hH params p n c cfg hL hS g iv hg
    (sealingOf H params p c iv (unsealLongOf H params n) (shortOf H params n c)) ⟨rfl, rfl, rfl, rfl, rfl, rfl, rfl, rfl⟩
  rw [h] at e1; cases e1
  rw [h'] at e1'; cases e1'
  rw [e2 k hk, e2' k hk]
  have hpl : ∀ i, blockOf params f i = blockOf params g i → plainUnits params c f i = plainUnits params c g i :=
    fun i hi => plainUnits_congr cfg.layout hi
  congr 1
  show Sealing.unsealedBlock _ _ (plainUnits params c f) k = Sealing.unsealedBlock _ _ (plainUnits params c g) k
  unfold Sealing.unsealedBlock
  have hprev : plainUnits params c f (k - 1) = plainUnits params c g (k - 1) := by
    by_cases h0 : k = 0
    · rw [h0]; exact hpl 0 (same 0 (Or.inl h0.symm))
    · exact hpl _ (same (k - 1) (Or.inr (Or.inl (by omega))))
  simp only
  rw [← hprev, ← hpl k (same k (Or.inl rfl))]
  congr 1
  apply List.map_congr_left
  intro i hi
  apply hpl i (same i (Or.inr (Or.inr ?_)))
  have hfl := plainUnits_flatten cfg.layout f (k - 1)
  rw [hfl] at hi
  exact hi

/-- A sealed file that is damaged in block `d` only still gives back every block of the padded
original except block `d`, the block after it, and the blocks that refer to block `d`. -/
theorem C80_damage (H : Bytes → Bytes) (hH : ∀ x, (H x).length = 32) (params : PosPara)
    (p n c : Nat) (cfg : Config params p n c) (hmode : params.modeL = 0) (hn : LongCountOk n params.cntL) (hS : ShortModeOk params n c)
    (origin iv padded : Bytes) (hlen : origin.length = params.dataL) (st : SealState)
    (hpad : copyAndPad origin params.dataL params.unitL = .ok padded)
    (hseal : sealFile H params padded (p : Int) iv = .ok st) (hlog : ∀ v ∈ st.log, v ≠ 0)
    (d : Nat) (bad : Bytes) (hbad : bad.length = st.file.length)
    (honly : ∀ i, (i < d * params.blockPl ∨ (d + 1) * params.blockPl ≤ i) → bad[i]? = st.file[i]?) :
    ∃ out, unsealFile H params bad (p : Int) iv = .ok out ∧ ∀ k < n, k ≠ d → k ≠ d + 1 →
      d ∉ hashLong H n params.cntL (H (readFile st.file ((k - 1) * params.blockPl) params.blockPl)) k →
      readFile out (k * params.blockPl) params.blockPl = readFile padded (k * params.blockPl) params.blockPl := by
  have hL : LongModeOk params n := ⟨fun _ => hn, fun h => by omega, fun h => by omega⟩
  obtain ⟨pd, h1, h2, h3, h4⟩ := padded_unitsBelow cfg hlen
  rw [hpad] at h1
  cases h1
  have hfl : n * params.blockPl ≤ st.file.length := by
    obtain ⟨st', e1, -, e3⟩ := C64_seal_exact H hH params p n c cfg hL hS padded iv (by omega) h3
      (sealingOf H params p c iv (longOf H params n) (shortOf H params n c)) ⟨rfl, rfl, rfl, rfl, rfl, rfl, rfl, rfl, rfl⟩
    rw [hseal] at e1; cases e1
    omega
  obtain ⟨o, e1, -, -, -⟩ := C79_unseal_exact H hH params p n c cfg hL hS bad iv (by omega)
    (sealingOf H params p c iv (unsealLongOf H params n) (shortOf H params n c)) ⟨rfl, rfl, rfl, rfl, rfl, rfl, rfl, rfl⟩
  refine ⟨o, e1, fun k hk hkd hkd1 hdep => ?_⟩
  have hu := (C01_round_trip H hH params p n c cfg hmode origin hlen iv padded st hpad hseal hlog).1
  symm
  refine C80_local H hH params p n c cfg hL hS st.file bad iv hfl (by omega) padded o hu e1 k hk (fun i hi => ?_)
  have hid : i ≠ d := by
    rintro rfl
    rcases hi with h | h | h
    · exact hkd h.symm
    · exact hkd1 h.symm
    · unfold unsealLongOf at h
      rw [if_pos hmode] at h
      exact hdep h
  refine readFile_congr (fun t h1 h2 => (honly t ?_).symm)
  rcases Nat.lt_or_gt_of_ne hid with h | h
  · left
    have : (i + 1) * params.blockPl ≤ d * params.blockPl := Nat.mul_le_mul_right _ h
    rw [Nat.add_mul] at this; omega
  · right
    have : (d + 1) * params.blockPl ≤ i * params.blockPl := Nat.mul_le_mul_right _ h
    omega

set_option maxRecDepth 100000 in
/-- Meets the hypotheses of `C80_damage`: four blocks, block 1 damaged; block 3 does not refer to it. -/
example : ∃ padded st, copyAndPad (toyFile 252) 252 63 = .ok padded ∧
    sealFile toyHash (toyParams 4 1 0 0 1 0 1) padded P_512 [1, 2, 3] = .ok st ∧ (∀ v ∈ st.log, v ≠ 0) ∧
    1 ∉ hashLong toyHash 4 1 (toyHash (readFile st.file 128 64)) 3 := by
  have h : (match copyAndPad (toyFile 252) 252 63 with
    | .ok padded => (match sealFile toyHash (toyParams 4 1 0 0 1 0 1) padded P_512 [1, 2, 3] with
      | .ok st => decide ((∀ v ∈ st.log, v ≠ 0) ∧
          1 ∉ ((List.range (available 4 1)).map (fun i => drawn toyHash (toyHash (readFile st.file 128 64)) 4 i % 3)).take 1)
      | .error _ => false)
    | .error _ => false) = true := by decide +kernel
  split at h
  · next padded hp =>
    split at h
    · next st hs =>
      obtain ⟨h1, h2⟩ := of_decide_eq_true h
      refine ⟨padded, st, hp, hs, h1, ?_⟩
      unfold hashLong
      rw [if_neg (by omega)]
      simp only
      rw [Finset.mem_sort, List.mem_toFinset]
      exact h2
    · cases h
  · cases h

end PoS
