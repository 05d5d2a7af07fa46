import Verif.Model.SingleLive
import Verif.Properties.LiveVerdict
import Verif.Properties.TestRuns

/-
C130: the check of the first ten blocks while the files are being rewritten.
-/

namespace PoS

theorem firstTen {params : PosPara} (hb : 0 < params.blockPl) :
    blocksIdxOf params.blockPl (0 * params.blockPl) (10 * params.blockPl) = .ok (List.range 10) := by
  rw [blocksIdxOf_eq hb]
  have : (10 * params.blockPl - 0 * params.blockPl + params.blockPl - 1) / params.blockPl = 10 := by
    rw [Nat.zero_mul, Nat.sub_zero, Nat.add_sub_assoc hb, Nat.add_comm, Nat.add_mul_div_right _ _ hb,
      Nat.div_eq_of_lt (by omega), Nat.zero_add]
  rw [this]
  simp

/-- The verdict, whatever contents the reads find: the check passes exactly if unsealing each of the first ten blocks as
its own read found it, with the initial vector that was loaded, the identifier of the block before as found by the second
read and the dependency blocks named by this identifier as found by the others, gives units that begin with the bytes
that the reads of the original found. -/
theorem C130_verdict (H : Bytes → Bytes) (hH : ∀ x, (H x).length = 32) (params : PosPara) (p n c : Nat)
    (cfg : Config params p n c) (hL : LongModeOk params n) (hSc : ShortModeOk params c c) (h10 : 10 ≤ n)
    (pub iv : Bytes) (hload : loadData pub = .ok ((p : Int), iv)) (own before : Nat → Bytes) (dep : Nat → Nat → Bytes)
    (origin : Nat → Bytes)
    (id : Nat → Bytes) (hid : ∀ k, id k = H (readFile (before k) ((k - 1) * params.blockPl) params.blockPl))
    (found : Nat → Nat → List Bytes) (hfound : ∀ k m, found k m = plainUnits params c (dep k m)
      ((longOf H params n (id k) k).getD m 0))
    (S : Sealing) (hd : describes S H params p c c iv) :
    unsealSingleLive pub own before dep origin H params = .ok () ↔
      ∀ k < 10, ∀ j < c, ∀ t < params.unitL,
        ((S.unsealOne ((undelay p)^[params.vdeRounds]) ((List.range (longOf H params n (id k) k).length).map (found k))
          (if k = 0 then iv else id k) (plainUnits params c (own k) k)).getD j []).getD t 0 =
        (origin k)[k * params.blockL + j * params.unitL + t]?.getD 0 := by
  let deps : Nat → List (List Bytes) := fun k => (List.range (longOf H params n (id k) k).length).map (found k)
  let pr : Nat → Prepared := fun k => ⟨plainUnits params c (own k) k, (if k ≠ 0 then id k else []), deps k⟩
  have hpr : ∀ k ∈ List.range 10, singleUnsealPrepareLive (own k) (before k) (dep k) H params k = .ok (pr k) := by
    intro k hk
    rw [C119_prepare H hH params p n c cfg hL (own k) (before k) (dep k) k
      (by have := List.mem_range.mp hk; omega) (id k) (hid k)]
    congr 2
    apply List.ext_getElem?
    intro m
    by_cases hm : m < (longOf H params n (id k) k).length
    · simp [deps, hm, hfound]
    · rw [List.getElem?_eq_none (by simpa using hm), List.getElem?_eq_none (by simpa [deps] using hm)]
  have hbpl : 0 < params.blockPl := by
    rw [cfg.block_pl, cfg.unit_pl]; exact Nat.mul_pos cfg.c_pos (by omega)
  obtain ⟨t0, ht0, -⟩ := longSel hH hL
  have hprep := C119_ranges own before dep H params _ _ _ (firstTen hbpl) n t0 cfg.div ht0 pr hpr
  have wf : WellFormed params c (List.range 10) ((List.range 10).map fun k => (pr k).block)
      ((List.range 10).map fun k => (pr k).beforeId) ((List.range 10).map fun k => (pr k).dependBlocks) := by
    refine ⟨by simp, by simp, by simp, fun b hb => ?_, fun d hd b hb => ?_⟩
    · obtain ⟨k, hk, rfl⟩ := List.mem_map.mp hb
      refine ⟨by simp [pr, plainUnits], fun u hu => ?_⟩
      simp only [pr, plainUnits, List.mem_map] at hu
      obtain ⟨j, -, rfl⟩ := hu
      exact readFile_length _ _ _
    · obtain ⟨k, hk, rfl⟩ := List.mem_map.mp hd
      simp only [pr, deps, List.mem_map] at hb
      obtain ⟨m, -, rfl⟩ := hb
      rw [hfound]
      simp [plainUnits]
  have hex := C81_batch_exact H hH params p n c cfg hSc iv _ _ _ _ wf
  rw [show decodedBlocks (sealingOf H params p c iv (longOf H params n) (shortOf H params c c)) = decodedBlocks S by
    rw [describes_sealingOf hd]; rfl] at hex
  unfold unsealSingleLive
  rw [hload, bind_ok, hprep, bind_ok]
  simp only []
  rw [hex, bind_ok]
  rw [forUp_unit_iff (f := fun i => do
    let k ← at! (List.range 10) i
    let b ← at! (decodedBlocks S ((undelay p)^[params.vdeRounds]) iv (List.range 10)
      ((List.range 10).map fun k => (pr k).block) ((List.range 10).map fun k => (pr k).beforeId)
      ((List.range 10).map fun k => (pr k).dependBlocks)) i
    batchVerify (origin k) k b params.blockL params.unitL)]
  rw [List.length_range]
  refine forall_congr' fun k => forall_congr' fun hk => ?_
  have hk' : k < (List.range 10).length := by simpa using hk
  have hdec : (decodedBlocks S ((undelay p)^[params.vdeRounds]) iv (List.range 10)
      ((List.range 10).map fun k => (pr k).block) ((List.range 10).map fun k => (pr k).beforeId)
      ((List.range 10).map fun k => (pr k).dependBlocks))[k]? =
      some (S.unsealOne ((undelay p)^[params.vdeRounds]) (deps k) (if k = 0 then iv else id k)
        (plainUnits params c (own k) k)) := by
    rw [decodedBlocks_get hk']
    simp only [List.getD_eq_getElem?_getD, List.getElem?_map, List.getElem?_range hk, Option.map_some,
      Option.getD_some, pr]
    by_cases h0 : k = 0
    · simp [h0]
    · simp [h0]
  have hsh : (S.unsealOne ((undelay p)^[params.vdeRounds]) (deps k) (if k = 0 then iv else id k)
      (plainUnits params c (own k) k)).length = c ∧ ∀ u ∈ S.unsealOne ((undelay p)^[params.vdeRounds]) (deps k)
      (if k = 0 then iv else id k) (plainUnits params c (own k) k), u.length = params.unitPl := by
    rw [describes_sealingOf hd]
    exact unsealOne_shape (plainUnits_length _ _ _ _) (fun u hu => by
      obtain ⟨j, -, rfl⟩ := List.mem_map.mp hu
      exact readFile_length _ _ _)
  rw [at!_of_lt hk', bind_ok, List.getElem_range, at!_eq_ok.mpr hdec, bind_ok, C27_accepts_iff _ _ _ _ c cfg.unit_pos cfg.block]
  refine forall_congr' fun j => forall_congr' fun hj => ?_
  have hj' := hsh.1.symm ▸ hj
  have hul := hsh.2 _ (List.getElem_mem hj')
  rw [List.getElem?_eq_getElem hj']
  simp only [Option.some.injEq, exists_eq_left']
  rw [List.getD_eq_getElem?_getD, List.getElem?_eq_getElem hj', Option.getD_some]
  constructor
  · rintro ⟨-, h⟩ t ht
    rw [List.getD_eq_getElem?_getD, h t ht]
    rfl
  · intro h
    refine ⟨by rw [hul, cfg.unit_pl]; omega, fun t ht => ?_⟩
    have := h t ht
    rw [List.getD_eq_getElem?_getD, List.getElem?_eq_getElem (by rw [hul, cfg.unit_pl]; omega), Option.getD_some] at this
    rw [List.getElem?_eq_getElem (by rw [hul, cfg.unit_pl]; omega), this]

/-- When nothing is rewritten, or the rewriting does not reach the parts that are read, the check is the usual one: if for
each `k` below ten the content found by the read of block `k` agrees with `F` up to its end, and the contents found by the
other reads made for it agree with `F` in front of it, the verdict is that for `F`. -/
theorem C130_same (H : Bytes → Bytes) (params : PosPara) (hb : 0 < params.blockPl) (pub F origin : Bytes)
    (own before : Nat → Bytes) (dep : Nat → Nat → Bytes)
    (ho : ∀ k < 10, ∀ x < (k + 1) * params.blockPl, (own k)[x]? = F[x]?)
    (hbf : ∀ k < 10, ∀ x < k * params.blockPl, (before k)[x]? = F[x]?)
    (hdp : ∀ k < 10, ∀ m, ∀ x < k * params.blockPl, (dep k m)[x]? = F[x]?) (un : Option Bytes) (sched : List Nat) :
    unsealSingleLive pub own before dep (fun _ => origin) H params = .ok () ↔
      unsealSingleAndVerify H params ⟨some origin, some F, un, some pub⟩ 0 sched = .ok (some ()) := by
  have e := C119_range own before dep H params (0 * params.blockPl) (10 * params.blockPl) F (fun k idxs h1 h2 => by
    rw [firstTen hb] at h1
    cases h1
    have hk := List.mem_range.mp h2
    exact ⟨ho k hk, hbf k hk, hdp k hk⟩)
  unfold unsealSingleLive unsealSingleAndVerify
  rw [e]
  simp only [openFile, bind_ok, if_true]
  rw [bind_eq_ok, bind_eq_ok]
  refine exists_congr fun kv => and_congr_right fun _ => ?_
  rw [bind_eq_ok, bind_eq_ok]
  refine exists_congr fun bp => and_congr_right fun _ => ?_
  constructor
  · intro h
    rw [bind_eq_ok] at h
    obtain ⟨out, h1, h2⟩ := h
    rw [h1]
    simp only [bind_ok, pure_eq_ok]
    rw [h2]
    rfl
  · intro h
    rw [bind_eq_ok] at h
    obtain ⟨o, h1, h2⟩ := h
    rw [bind_eq_ok] at h1
    obtain ⟨out, h1, h3⟩ := h1
    cases h3
    simp only [] at h2
    rw [bind_eq_ok] at h2
    obtain ⟨u, h2, -⟩ := h2
    rw [h1, bind_ok]
    exact h2

/-- The check made while `seal` is still at work on the same file with the same parameters.  `save_data` comes after
`seal`, so the public data that is found is that of an earlier run, with another initial vector `iv'`.  If every block is
read when it has been sealed, the blocks from the second on pass, and the check passes exactly if the first block,
unsealed with `iv'`, gives the bytes of the original. -/
theorem C130_old_initial_vector (H : Bytes → Bytes) (hH : ∀ x, (H x).length = 32) (params : PosPara) (p n c : Nat)
    (cfg : Config params p n c) (hL : LongModeOk params n) (hSc : ShortModeOk params c c) (hSn : ShortModeOk params n c)
    (hr : 0 < params.sealRounds) (h10 : 10 ≤ n) (hkl : (intToString (p : Int)).length < 2 ^ 64)
    (origin padded iv iv' pub : Bytes) (hil : iv.length < 2 ^ 64) (hlen : origin.length = params.dataL)
    (hpad : copyAndPad origin params.dataL params.unitL = .ok padded)
    (st : SealState) (hseal : sealFile H params padded (p : Int) iv = .ok st) (hlog : ∀ v ∈ st.log, v ≠ 0)
    (hload : loadData pub = .ok ((p : Int), iv')) (own before : Nat → Bytes) (dep : Nat → Nat → Bytes)
    (ho : ∀ k < 10, SealingShows H params padded (p : Int) iv n k (own k))
    (hb : ∀ k < 10, k ≠ 0 → SealingShows H params padded (p : Int) iv n (k - 1) (before k))
    (hd : ∀ k < 10, k ≠ 0 → ∀ m, SealingShows H params padded (p : Int) iv n (k - 1) (dep k m))
    (S : Sealing) (hS : describes S H params p c c iv') :
    unsealSingleLive pub own before dep (fun _ => origin) H params = .ok () ↔
      ∀ j < c, ∀ t < params.unitL,
        ((S.unsealOne ((undelay p)^[params.vdeRounds]) [] iv' (plainUnits params c st.file 0)).getD j []).getD t 0 =
        origin[j * params.unitL + t]?.getD 0 := by
  have hbpl : 0 < params.blockPl := by
    rw [cfg.block_pl, cfg.unit_pl]; exact Nat.mul_pos cfg.c_pos (by omega)
  obtain ⟨pd, g1, g2, g3, -⟩ := padded_unitsBelow cfg hlen
  rw [hpad] at g1
  cases g1
  have ao : ∀ k < 10, ∀ x < (k + 1) * params.blockPl, (own k)[x]? = st.file[x]? :=
    fun k hk => (ho k hk).agree hH cfg hL hSn (by omega) g3 hseal
  have ab : ∀ k < 10, ∀ x < k * params.blockPl, (before k)[x]? = st.file[x]? := fun k hk x hx =>
    (hb k hk (pos_of_lt_mul hx)).agree hH cfg hL hSn (by omega) g3 hseal x (by
      rw [Nat.sub_add_cancel (Nat.pos_of_ne_zero (pos_of_lt_mul hx))]; exact hx)
  have ad : ∀ k < 10, ∀ m, ∀ x < k * params.blockPl, (dep k m)[x]? = st.file[x]? := fun k hk m x hx =>
    (hd k hk (pos_of_lt_mul hx) m).agree hH cfg hL hSn (by omega) g3 hseal x (by
      rw [Nat.sub_add_cancel (Nat.pos_of_ne_zero (pos_of_lt_mul hx))]; exact hx)
  have hgood := (C130_same H params hbpl (saveData [] (p : Int) iv) st.file origin own before dep ao ab ad none []).mpr
    ((C72_honest_accepted H hH params p n c cfg hr h10 origin padded iv _ hlen hpad st hseal hlog none
      (C17_load_save [] _ _ hkl hil)).1 [])
  have v1 := C130_verdict H hH params p n c cfg hL hSc h10 (saveData [] (p : Int) iv) iv (C17_load_save [] _ _ hkl hil) own before
    dep (fun _ => origin) _ (fun k => rfl) _ (fun k m => rfl) _
    (⟨rfl, rfl, rfl, rfl, rfl, rfl, rfl, rfl, rfl⟩ :
      describes (sealingOf H params p c iv (longOf H params c) (shortOf H params c c)) H params p c c iv)
  have v2 := C130_verdict H hH params p n c cfg hL hSc h10 pub iv' hload own before dep (fun _ => origin) _ (fun k => rfl) _
    (fun k m => rfl) S hS
  have hgood := v1.mp hgood
  rw [v2]
  have e0 : plainUnits params c (own 0) 0 = plainUnits params c st.file 0 :=
    plainUnits_congr cfg.layout (readFile_congr fun x _ hx => ao 0 (by norm_num) x (by simpa using hx))
  have e1 : ∀ id, longOf H params n id 0 = [] := by
    intro id
    obtain ⟨t, -, hsel⟩ := longSel hH hL
    exact List.eq_nil_iff_forall_not_mem.mpr (fun i hi => Nat.not_lt_zero _ ((hsel 0 (by omega) id).1 i hi))
  constructor
  · intro h j hj t ht
    have := h 0 (by norm_num) j hj t ht
    rw [e1] at this
    simpa [e0] using this
  · intro h k hk j hj t ht
    by_cases h0 : k = 0
    · subst h0
      rw [e1]
      simpa [e0] using h j hj t ht
    · have := hgood k hk j hj t ht
      rw [if_neg h0] at this ⊢
      rw [describes_sealingOf hS]
      exact this

/-- Eleven blocks of one unit, checked while they are being sealed: with the initial vector of an earlier run the check
panics, with the right one it would pass, although the last block has not been sealed yet. -/
example : (match copyAndPad (toyFile 693) 693 63 with
    | .ok padded => (match sealStopped toyHash (toyParams 11 1 0 0 1 1 2) padded P_512 [1, 2, 3] 10 5 with
      | .ok f => decide (
          unsealSingleLive (saveData [] P_512 [3, 2, 1]) (fun _ => f) (fun _ => f) (fun _ _ => f) (fun _ => toyFile 693)
            toyHash (toyParams 11 1 0 0 1 1 2) = .error .assertion ∧
          unsealSingleLive (saveData [] P_512 [1, 2, 3]) (fun _ => f) (fun _ => f) (fun _ _ => f) (fun _ => toyFile 693)
            toyHash (toyParams 11 1 0 0 1 1 2) = .ok ())
      | .error _ => false)
    | .error _ => false) = true := by decide +kernel

end PoS
