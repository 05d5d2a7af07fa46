import Verif.Model.Workflow
import Verif.Properties.Protocol

/-
The workflow functions: C71 (`seal_and_unseal`), C72 (the check of the first ten blocks), C73
(combinations of the switches of `test_postorage`).
-/

namespace PoS

theorem genPosdata_key (l : Nat) (rng : Nat → UInt8) :
    prepareParams (genPosdata l).unitPl rng = (P_512, (List.range 128).map rng) := by
  have : (genPosdata l).unitPl = 64 := by
    unfold genPosdata; split
    · rfl
    · split
      · rfl
      · split <;> rfl
  rw [this]; rfl

/-! ### C71: `seal_and_unseal` -/

/-- With the unseal switch: the data comes back, but since unsealing works in place, the sealed file
is gone: what is left under its name is the padded original.  Nothing depends on what the files held
before. -/
theorem C71_with_unseal (H : Bytes → Bytes) (hH : ∀ x, (H x).length = 32) (l : Nat) (d : Disk) (origin padded : Bytes)
    (ho : d.origin = some origin) (hlen : origin.length = (genPosdata l).dataL) (rng : Nat → UInt8)
    (hpad : copyAndPad origin (genPosdata l).dataL (genPosdata l).unitL = .ok padded)
    (hz : NoZeroInput H (genPosdata l) padded P_512 ((List.range 128).map rng)) :
    ∃ pub, sealAndUnseal H (genPosdata l) d rng true =
        .ok { origin := some origin, sealed := some padded, unsealed := some origin, pubdata := some pub } ∧
      loadData pub = .ok (P_512, (List.range 128).map rng) := by
  obtain ⟨c, hc, cfg, hL, hS⟩ := genPosdata_config l _ prime_P_512 (by norm_num) (by norm_num) (by norm_num)
  obtain ⟨pd, st, g1, g2, -⟩ := C02_shipped_P512 H hH l origin ((List.range 128).map rng) hlen
  rw [hpad] at g1
  cases g1
  obtain ⟨u1, u2⟩ := C01_round_trip H hH _ _ 256 c cfg hL origin hlen _ padded st hpad g2 (hz st g2)
  have u1' : unsealFile H (genPosdata l) st.file P_512 ((List.range 128).map rng) = .ok padded := u1
  refine ⟨saveData (d.pubdata.getD []) P_512 ((List.range 128).map rng), ?_, ?_⟩
  · unfold sealAndUnseal
    rw [ho]
    simp only [openFile, bind_ok, hpad, genPosdata_key, g2, if_true, u1', u2]
    rfl
  · have := C17_shipped (d.pubdata.getD []) (genPosdata l).unitPl rng
    rw [genPosdata_key] at this
    exact this

/-- Without the unseal switch: the sealed file is the one `seal` makes of the padded original, the
unsealed file is not touched. -/
theorem C71_without_unseal (H : Bytes → Bytes) (hH : ∀ x, (H x).length = 32) (l : Nat) (d : Disk) (origin : Bytes)
    (ho : d.origin = some origin) (hlen : origin.length = (genPosdata l).dataL) (rng : Nat → UInt8) :
    ∃ padded st pub, copyAndPad origin (genPosdata l).dataL (genPosdata l).unitL = .ok padded ∧
      sealFile H (genPosdata l) padded P_512 ((List.range 128).map rng) = .ok st ∧
      pub = saveData (d.pubdata.getD []) P_512 ((List.range 128).map rng) ∧
      loadData pub = .ok (P_512, (List.range 128).map rng) ∧
      sealAndUnseal H (genPosdata l) d rng false =
        .ok { origin := some origin, sealed := some st.file, unsealed := d.unsealed, pubdata := some pub } := by
  obtain ⟨padded, st, g1, g2, -⟩ := C02_shipped_P512 H hH l origin ((List.range 128).map rng) hlen
  refine ⟨padded, st, _, g1, g2, rfl, ?_, ?_⟩
  · have := C17_shipped (d.pubdata.getD []) (genPosdata l).unitPl rng
    rw [genPosdata_key] at this
    exact this
  · unfold sealAndUnseal
    rw [ho]
    simp only [openFile, bind_ok, g1, genPosdata_key, g2]
    rfl

/-- Without an origin file both variants panic. -/
theorem C71_no_origin (H : Bytes → Bytes) (params : PosPara) (d : Disk) (ho : d.origin = none) (rng : Nat → UInt8)
    (u : Bool) : sealAndUnseal H params d rng u = .error .unwrap := by
  unfold sealAndUnseal
  rw [ho]
  rfl

/-- A small run of both variants. -/
example : (match sealAndUnseal toyHash (toyParams 2 1 0 0 0 1 1) ⟨some (toyFile 126), none, none, none⟩
      (fun i => UInt8.ofNat i) true, sealAndUnseal toyHash (toyParams 2 1 0 0 0 1 1) ⟨some (toyFile 126), none, none, none⟩
      (fun i => UInt8.ofNat i) false with
    | .ok d, .ok d' => decide (d.unsealed = some (toyFile 126) ∧ copyAndPad (toyFile 126) 126 63 = .ok (d.sealed.getD [])
        ∧ d'.unsealed = none ∧ d'.sealed ≠ d.sealed ∧ d.pubdata = d'.pubdata)
    | _, _ => false) = true := by decide +kernel

theorem openFile_some (b : Bytes) : openFile (some b) = .ok b := rfl

/-! ### C72: checking the first ten blocks -/

theorem single_honest {H : Bytes → Bytes} (hH : ∀ x, (H x).length = 32) {params : PosPara} {p n c : Nat}
    (cfg : Config params p n c) (hr : 0 < params.sealRounds) (hn : 10 ≤ n) {origin padded iv : Bytes}
    (hlen : origin.length = params.dataL) (hpad : copyAndPad origin params.dataL params.unitL = .ok padded)
    {st : SealState} (hseal : sealFile H params padded (p : Int) iv = .ok st) (hlog : ∀ v ∈ st.log, v ≠ 0)
    {d : Disk} (ho : d.origin = some origin) (hs : d.sealed = some st.file) {pub : Bytes}
    (hp : d.pubdata = some pub) (hload : loadData pub = .ok ((p : Int), iv)) :
    (∀ sched, unsealSingleAndVerify H params d 0 sched = .ok (some ())) ∧
    ∀ workers, 0 < workers →
      (∀ sched, unsealSingleAndVerify H params d workers sched = .ok (some ()) ∨
        unsealSingleAndVerify H params d workers sched = .ok none) ∧
      ∃ sched, unsealSingleAndVerify H params d workers sched = .ok (some ()) := by
  obtain ⟨pd, g1, g2, g3, -⟩ := padded_unitsBelow cfg hlen
  rw [hpad] at g1
  cases g1
  have hbpl : 0 < params.blockPl := by
    rw [cfg.block_pl, cfg.unit_pl]; exact Nat.mul_pos cfg.c_pos (by omega)
  have hI : blocksIdxOf params.blockPl (0 * params.blockPl) (10 * params.blockPl) = .ok (List.range 10) := by
    rw [blocksIdxOf_eq hbpl]
    have : (10 * params.blockPl - 0 * params.blockPl + params.blockPl - 1) / params.blockPl = 10 := by
      rw [Nat.zero_mul, Nat.sub_zero, Nat.add_sub_assoc hbpl, Nat.add_comm, Nat.add_mul_div_right _ _ hbpl,
        Nat.div_eq_of_lt (by omega), Nat.zero_add]
    rw [this]
    simp
  have hlt : ∀ k ∈ List.range 10, k < n := fun k hk => by have := List.mem_range.mp hk; omega
  obtain ⟨pr, outs, q1, q2, q3, q4⟩ := C03_random_access H hH params p n c cfg hr padded iv (by omega) g3 st hseal hlog
    (List.range 10) (by simp) hlt
  obtain ⟨-, -, n', L, hn', hL, -⟩ := singleUnsealPrepare_inv (q1 0 (by simp))
  have hprep := batchUnsealPrepare_eq (H := H) (file := st.file) hI hn' hL q1
  set indices := List.range 10 with hindices
  set blocks := indices.map fun k => (pr k).block with hblocks
  set befores := indices.map fun k => (pr k).beforeId with hbefores
  set deps := indices.map fun k => (pr k).dependBlocks with hdeps
  have hcmp : ∀ out : List (List Bytes), out.length = indices.length →
      (∀ (i k : Nat) (o : List Bytes), indices[i]? = some k → out[i]? = some o →
        o.flatten = readFile padded (k * params.blockPl) params.blockPl ∧ o.length = c ∧
        ∀ u ∈ o, u.length = params.unitPl) →
      forUp indices.length (fun i (_ : Unit) => do
        let k ← at! indices i
        let b ← at! out i
        let origin ← openFile d.origin
        batchVerify origin k b params.blockL params.unitL) () = .ok () := by
    intro out hol ho'
    rw [forUp_unit_iff (f := fun i => do
        let k ← at! indices i
        let b ← at! out i
        let origin ← openFile d.origin
        batchVerify origin k b params.blockL params.unitL)]
    intro i hi
    rw [at!_of_lt hi, bind_ok, at!_of_lt (by omega), bind_ok, ho]
    obtain ⟨f1, f2, f3⟩ := ho' i _ _ (List.getElem?_eq_getElem hi) (List.getElem?_eq_getElem (by omega))
    exact honest_block_verifies cfg hlen hpad (hlt _ (List.getElem_mem hi)) f2 f3 f1
  have hstart : ∀ workers sched, unsealSingleAndVerify H params d workers sched = (do
      let unsealed ←
       (if workers = 0 then do
          let out ← batchUnseal H params indices blocks befores deps (p : Int) iv
          pure (some out)
        else batchUnsealParallel H params indices blocks befores deps (p : Int) iv
          workers sched : R (Option (List (List Bytes))))
      match unsealed with
      | none => pure none
      | some out => do
        forUp indices.length (fun i _ => do
          let k ← at! indices i
          let b ← at! out i
          let origin ← openFile d.origin
          batchVerify origin k b params.blockL params.unitL) ()
        pure (some ())) := by
    intro workers sched
    unfold unsealSingleAndVerify
    rw [hp, hs]
    rw [openFile_some, bind_ok, hload, bind_ok, openFile_some, bind_ok, hprep, bind_ok]
    rfl
  constructor
  · intro sched
    rw [hstart]
    simp only [if_true, q2, bind_ok]
    show (do
      forUp indices.length _ ()
      pure (some ())) = _
    rw [hcmp outs q3 q4]
    rfl
  · intro workers hw
    have hstep : ∀ sched,
        (∃ outs, batchUnsealParallel H params indices blocks befores deps (p : Int) iv workers sched = .ok (some outs)) →
        unsealSingleAndVerify H params d workers sched = .ok (some ()) := by
      rintro sched ⟨o, ho'⟩
      obtain ⟨pr', w1, w2⟩ := C05_honest H hH params p n c cfg hr padded iv (by omega) g3 st
        hseal hlog indices hlt workers
      have hpr : ∀ k ∈ indices, pr' k = pr k := by
        intro k hk
        have := w1 k hk
        rw [q1 k hk] at this
        exact (Except.ok.inj this).symm
      have e1 : (indices.map fun k => (pr' k).block) = blocks := List.map_congr_left (fun k hk => by rw [hpr k hk])
      have e2 : (indices.map fun k => (pr' k).beforeId) = befores := List.map_congr_left (fun k hk => by rw [hpr k hk])
      have e3 : (indices.map fun k => (pr' k).dependBlocks) = deps := List.map_congr_left (fun k hk => by rw [hpr k hk])
      rw [e1, e2, e3] at w2
      obtain ⟨x1, x2⟩ := w2 sched o ho'
      rw [hstart, if_neg (by omega), ho', bind_ok]
      simp only []
      rw [hcmp o x1 x2]
      rfl
    have hS : ∃ S, parIdxsS params = .ok S := by
      obtain ⟨L, S, hL, hS, -⟩ := sealPrefix_eq cfg (by rw [← sealFile_eq cfg]; exact hseal)
      refine ⟨S, ?_⟩
      rw [← hS]
      unfold parIdxsS idxsSOf
      rw [cfg.div]
      rfl
    obtain ⟨S, hS⟩ := hS
    constructor
    · intro sched
      cases hb : batchUnsealParallel H params indices blocks befores deps (p : Int) iv workers sched with
      | error e =>
        exfalso
        rcases (C06_only_two_panics H params indices blocks befores deps (p : Int) iv workers sched).mp ⟨e, hb⟩ with
          ⟨e, he⟩ | h
        · rw [hS] at he; cases he
        · omega
      | ok o =>
        cases o with
        | some o => exact Or.inl (hstep sched ⟨o, hb⟩)
        | none =>
          right
          rw [hstart, if_neg (by omega), hb]
          rfl
    · obtain ⟨-, rest, o, ho'⟩ := C05_terminates H params indices blocks befores deps (p : Int) iv workers hw S hS []
        ⟨blocks, List.replicate blocks.length .waiting⟩ rfl
      exact ⟨[] ++ rest, hstep _ ⟨o, ho'⟩⟩

/-- An honestly sealed file of at least ten blocks passes the check of its first ten blocks:
sequentially, and in parallel under every complete schedule, of which there is one. -/
theorem C72_honest_accepted (H : Bytes → Bytes) (hH : ∀ x, (H x).length = 32) (params : PosPara) (p n c : Nat)
    (cfg : Config params p n c) (hr : 0 < params.sealRounds) (hn : 10 ≤ n) (origin padded iv pub : Bytes)
    (hlen : origin.length = params.dataL) (hpad : copyAndPad origin params.dataL params.unitL = .ok padded)
    (st : SealState) (hseal : sealFile H params padded (p : Int) iv = .ok st) (hlog : ∀ v ∈ st.log, v ≠ 0)
    (un : Option Bytes) (hload : loadData pub = .ok ((p : Int), iv)) :
    (∀ sched, unsealSingleAndVerify H params ⟨some origin, some st.file, un, some pub⟩ 0 sched = .ok (some ())) ∧
    ∀ workers, 0 < workers →
      (∀ sched, unsealSingleAndVerify H params ⟨some origin, some st.file, un, some pub⟩ workers sched = .ok (some ()) ∨
        unsealSingleAndVerify H params ⟨some origin, some st.file, un, some pub⟩ workers sched = .ok none) ∧
      ∃ sched, unsealSingleAndVerify H params ⟨some origin, some st.file, un, some pub⟩ workers sched = .ok (some ()) :=
  single_honest hH cfg hr hn hlen hpad hseal hlog rfl rfl rfl hload

/-- Acceptance, sequentially or by any number of threads, says that the first ten blocks of whatever is
stored decode, under the stored public data, to the first ten blocks of the original. -/
theorem C72_accepted_iff (H : Bytes → Bytes) (params : PosPara) (c : Nat) (hu : 0 < params.unitL)
    (hb : params.blockL = c * params.unitL) (origin sealed pub : Bytes) (un : Option Bytes) (par : Nat) (sched : List Nat) :
    unsealSingleAndVerify H params ⟨some origin, some sealed, un, some pub⟩ par sched = .ok (some ()) ↔
      ∃ kv bp outs, loadData pub = .ok kv ∧ batchUnsealPrepare H params sealed 0 (10 * params.blockPl) = .ok bp ∧
        (par = 0 → batchUnseal H params bp.blocksIdx bp.blocks bp.beforeIds bp.dependBlocks kv.1 kv.2 = .ok outs) ∧
        (par ≠ 0 → batchUnsealParallel H params bp.blocksIdx bp.blocks bp.beforeIds bp.dependBlocks kv.1 kv.2 par sched =
          .ok (some outs)) ∧
        ∀ i (hi : i < bp.blocksIdx.length), ∃ out, outs[i]? = some out ∧
          ∀ j < c, ∃ u, out[j]? = some u ∧ params.unitL ≤ u.length ∧ ∀ t < params.unitL,
            u[t]? = some (origin[bp.blocksIdx[i] * params.blockL + j * params.unitL + t]?.getD 0) := by
  unfold unsealSingleAndVerify
  simp only [openFile, bind_ok, Nat.zero_mul]
  have hiff : ∀ (bp : BatchPrepared) (outs : List (List Bytes)),
      forUp bp.blocksIdx.length (fun i (_ : Unit) => do
        let k ← at! bp.blocksIdx i
        let b ← at! outs i
        batchVerify origin k b params.blockL params.unitL) () = .ok () ↔
      ∀ i (hi : i < bp.blocksIdx.length), ∃ out, outs[i]? = some out ∧
          ∀ j < c, ∃ u, out[j]? = some u ∧ params.unitL ≤ u.length ∧ ∀ t < params.unitL,
            u[t]? = some (origin[bp.blocksIdx[i] * params.blockL + j * params.unitL + t]?.getD 0) := by
    intro bp outs
    rw [forUp_unit_iff (f := fun i => do
        let k ← at! bp.blocksIdx i
        let b ← at! outs i
        batchVerify origin k b params.blockL params.unitL)]
    refine forall_congr' (fun i => forall_congr' (fun hi => ?_))
    rw [at!_of_lt hi, bind_ok, bind_eq_ok]
    refine exists_congr (fun out => ?_)
    rw [at!_eq_ok, C27_accepts_iff origin _ _ _ c hu hb]
  have hdec : ∀ (kv : Int × Bytes) (bp : BatchPrepared) (o : Option (List (List Bytes))),
      ((if par = 0 then do
          let out ← batchUnseal H params bp.blocksIdx bp.blocks bp.beforeIds bp.dependBlocks kv.1 kv.2
          pure (some out)
        else batchUnsealParallel H params bp.blocksIdx bp.blocks bp.beforeIds bp.dependBlocks kv.1 kv.2 par sched :
          R (Option (List (List Bytes)))) = .ok o ∧ o ≠ none) ↔
      ∃ outs, o = some outs ∧
        (par = 0 → batchUnseal H params bp.blocksIdx bp.blocks bp.beforeIds bp.dependBlocks kv.1 kv.2 = .ok outs) ∧
        (par ≠ 0 → batchUnsealParallel H params bp.blocksIdx bp.blocks bp.beforeIds bp.dependBlocks kv.1 kv.2 par sched =
          .ok (some outs)) := by
    intro kv bp o
    by_cases hp : par = 0
    · rw [if_pos hp]
      constructor
      · rintro ⟨h, -⟩
        rw [bind_eq_ok] at h
        obtain ⟨outs, h, h'⟩ := h
        cases h'
        exact ⟨outs, rfl, fun _ => h, fun g => absurd hp g⟩
      · rintro ⟨outs, rfl, h, -⟩
        rw [h hp]
        exact ⟨rfl, fun g => by cases g⟩
    · rw [if_neg hp]
      constructor
      · rintro ⟨h, h'⟩
        cases o with
        | none => exact absurd rfl h'
        | some outs => exact ⟨outs, rfl, fun g => absurd g hp, fun _ => h⟩
      · rintro ⟨outs, rfl, -, h⟩
        exact ⟨h hp, fun g => by cases g⟩
  constructor
  · intro h
    rw [bind_eq_ok] at h
    obtain ⟨kv, h1, h⟩ := h
    rw [bind_eq_ok] at h
    obtain ⟨bp, h2, h⟩ := h
    rw [bind_eq_ok] at h
    obtain ⟨o, h3, h⟩ := h
    have ho : o ≠ none := by
      rintro rfl
      cases h
    obtain ⟨outs, rfl, h4, h5⟩ := (hdec kv bp o).mp ⟨h3, ho⟩
    simp only [] at h
    rw [bind_eq_ok] at h
    obtain ⟨⟨⟩, h6, -⟩ := h
    exact ⟨kv, bp, outs, h1, h2, h4, h5, (hiff bp outs).mp h6⟩
  · rintro ⟨kv, bp, outs, h1, h2, h3, h3', h4⟩
    obtain ⟨h5, -⟩ := (hdec kv bp (some outs)).mpr ⟨outs, rfl, h3, h3'⟩
    rw [h1, bind_ok, h2, bind_ok, h5, bind_ok]
    show (do
      forUp bp.blocksIdx.length _ ()
      pure (some ())) = _
    rw [(hiff bp outs).mpr h4]
    rfl

/-- Ten blocks of one unit: the check accepts the sealed file, and panics on an altered one. -/
example : (match sealAndUnseal toyHash (toyParams 10 1 0 0 0 1 1) ⟨some (toyFile 630), none, none, none⟩
      (fun i => UInt8.ofNat i) false with
    | .ok d => decide (unsealSingleAndVerify toyHash (toyParams 10 1 0 0 0 1 1) d 0 [] = .ok (some ()) ∧
        unsealSingleAndVerify toyHash (toyParams 10 1 0 0 0 1 1)
          { d with sealed := d.sealed.map fun s => s.set 70 (s.getD 70 0 + 1) } 0 [] = .error .assertion)
    | _ => false) = true := by decide +kernel

/-! ### C73: the switches of `test_postorage` -/

/-- The documented use: one run that seals, then a run that checks the first ten blocks.  It starts
from any files whatsoever and is accepted. -/
theorem C73_seal_then_check (H Hs : Bytes → Bytes) (hH : ∀ x, (H x).length = 32) (l : Nat) (d : Disk)
    (ch ch' : RunChoices) (par : Nat)
    (hz : ∀ padded, copyAndPad (createRandomFile ch.originRng (genPosdata l).dataL) (genPosdata l).dataL
      (genPosdata l).unitL = .ok padded → NoZeroInput H (genPosdata l) padded P_512 ((List.range 128).map ch.ivRng)) :
    ∃ d', testPostorage H Hs (genPosdata l) ⟨true, false, false, false⟩ par ch d = .ok (some d') ∧
      d'.unsealed = d.unsealed ∧
      testPostorage H Hs (genPosdata l) ⟨false, false, false, true⟩ 0 ch' d' = .ok (some d') ∧
      ∀ workers, 0 < workers →
        (testPostorage H Hs (genPosdata l) ⟨false, false, false, true⟩ workers ch' d' = .ok (some d') ∨
          testPostorage H Hs (genPosdata l) ⟨false, false, false, true⟩ workers ch' d' = .ok none) ∧
        ∃ sched, testPostorage H Hs (genPosdata l) ⟨false, false, false, true⟩ workers { ch' with sched := sched } d' =
          .ok (some d') := by
  obtain ⟨c, hc, cfg, hL, hS⟩ := genPosdata_config l _ prime_P_512 (by norm_num) (by norm_num) (by norm_num)
  have hlen : (createRandomFile ch.originRng (genPosdata l).dataL).length = (genPosdata l).dataL := by
    simp [createRandomFile]
  obtain ⟨padded, st, pub, g1, g2, g3, g4, g5⟩ := C71_without_unseal H hH l
    { d with origin := some (createRandomFile ch.originRng (genPosdata l).dataL) } _ rfl hlen ch.ivRng
  have hr : 0 < (genPosdata l).sealRounds := by
    unfold genPosdata; split
    · norm_num
    · split
      · norm_num
      · split <;> norm_num
  obtain ⟨s1, s2⟩ := C72_honest_accepted H hH _ _ 256 c cfg hr (by norm_num) _ padded _ pub hlen g1 st g2
    (hz padded g1 st g2) d.unsealed g4
  refine ⟨⟨some (createRandomFile ch.originRng (genPosdata l).dataL), some st.file, d.unsealed, some pub⟩, ?_, rfl, ?_, ?_⟩
  · unfold testPostorage
    simp only [if_true, g5, bind_ok]
    rfl
  · unfold testPostorage
    simp only [Bool.false_eq_true, if_false, if_true]
    rw [show (pure (⟨some (createRandomFile ch.originRng (genPosdata l).dataL), some st.file, d.unsealed, some pub⟩ : Disk) : R Disk) = .ok _ from rfl,
      bind_ok, s1, bind_ok]
    rfl
  · intro workers hw
    have e : ∀ sched, testPostorage H Hs (genPosdata l) ⟨false, false, false, true⟩ workers { ch' with sched := sched }
        ⟨some (createRandomFile ch.originRng (genPosdata l).dataL), some st.file, d.unsealed, some pub⟩ =
        (unsealSingleAndVerify H (genPosdata l)
          ⟨some (createRandomFile ch.originRng (genPosdata l).dataL), some st.file, d.unsealed, some pub⟩ workers sched >>=
          fun a => match a with
          | none => pure none
          | some () => pure (some ⟨some (createRandomFile ch.originRng (genPosdata l).dataL), some st.file, d.unsealed, some pub⟩)) := by
      intro sched
      unfold testPostorage
      simp only [Bool.false_eq_true, if_false, if_true]
      rfl
    obtain ⟨t1, t2⟩ := s2 workers hw
    constructor
    · have e' := e ch'.sched
      rw [show ({ ch' with sched := ch'.sched } : RunChoices) = ch' from rfl] at e'
      rw [e']
      rcases t1 ch'.sched with h | h
      · left; rw [h]; rfl
      · right; rw [h]; rfl
    · obtain ⟨sched, hs⟩ := t2
      refine ⟨sched, ?_⟩
      rw [e, hs]
      rfl

/-- Seal, unseal and challenge leaves in one run: accepted when the draws finish, and all files have
their final contents. -/
theorem C73_seal_unseal_challenge (H Hs : Bytes → Bytes) (hH : ∀ x, (H x).length = 32) (hHs : ∀ x, (Hs x).length = 32)
    (l : Nat) (d : Disk) (ch : RunChoices) (par : Nat) (padded : Bytes)
    (hfin : ∃ s, createChallenges ch.draw (genPosdata l).leavesToProveCount 0 256 ch.fuel = .ok (some s))
    (hpad : copyAndPad (createRandomFile ch.originRng (genPosdata l).dataL) (genPosdata l).dataL
      (genPosdata l).unitL = .ok padded)
    (hz : NoZeroInput H (genPosdata l) padded P_512 ((List.range 128).map ch.ivRng)) :
    ∃ d', testPostorage H Hs (genPosdata l) ⟨true, true, true, false⟩ par ch d = .ok (some d') ∧
      d'.unsealed = d'.origin ∧ d'.sealed = some padded := by
  obtain ⟨c, hc, cfg, hL, hS⟩ := genPosdata_config l _ prime_P_512 (by norm_num) (by norm_num) (by norm_num)
  have hlen : (createRandomFile ch.originRng (genPosdata l).dataL).length = (genPosdata l).dataL := by
    simp [createRandomFile]
  obtain ⟨pub, g1, g2⟩ := C71_with_unseal H hH l
    { d with origin := some (createRandomFile ch.originRng (genPosdata l).dataL) } _ padded rfl hlen ch.ivRng hpad hz
  obtain ⟨s, hs⟩ := hfin
  have hbl : 0 < (genPosdata l).blockL := by
    rw [cfg.block]; exact Nat.mul_pos cfg.c_pos cfg.unit_pos
  have hcount : 0 < (genPosdata l).leavesToProveCount := by
    unfold genPosdata; split
    · norm_num
    · split
      · norm_num
      · split <;> norm_num
  have hm := C70_complete Hs hHs (createRandomFile ch.originRng (genPosdata l).dataL)
    (createRandomFile ch.originRng (genPosdata l).dataL) 256 (genPosdata l).blockL _ hbl hcount ch.draw ch.fuel rfl s hs
  rw [← cfg.data] at hm
  refine ⟨⟨some (createRandomFile ch.originRng (genPosdata l).dataL), some padded,
    some (createRandomFile ch.originRng (genPosdata l).dataL), some pub⟩, ?_, rfl, rfl⟩
  unfold testPostorage
  simp only [if_true, g1, bind_ok, Bool.false_eq_true, if_false]
  rw [show (pure (some ()) : R (Option Unit)) = .ok (some ()) from rfl, bind_ok]
  simp only [openFile, bind_ok, hm]
  rfl

/-- Checking the first ten blocks, or challenging leaves, without the files of an earlier run
panics. -/
theorem C73_missing_files (H Hs : Bytes → Bytes) (params : PosPara) (flags : Flags) (par : Nat) (ch : RunChoices)
    (d : Disk) (hs : flags.shouldSeal = false) :
    (flags.shouldUnsealSingle = true → d.pubdata = none →
      testPostorage H Hs params flags par ch d = .error .unwrap) ∧
    (flags.shouldUnsealSingle = true → d.sealed = none → (∃ e, testPostorage H Hs params flags par ch d = .error e)) ∧
    (flags.shouldUnsealSingle = false → flags.shouldChallengeLeaves = true → d.origin = none ∨ d.unsealed = none →
      testPostorage H Hs params flags par ch d = .error .unwrap) := by
  obtain ⟨o, sl, un, pb⟩ := d
  refine ⟨?_, ?_, ?_⟩
  · intro h1 h2
    cases h2
    unfold testPostorage unsealSingleAndVerify
    rw [hs, h1]
    rfl
  · intro h1 h2
    cases h2
    unfold testPostorage unsealSingleAndVerify
    rw [hs, h1]
    cases pb with
    | none => exact ⟨_, rfl⟩
    | some b =>
      cases hl : loadData b with
      | error e =>
        refine ⟨e, ?_⟩
        show ((do
          let kv ← loadData b
          _ : R (Option Unit)) >>= _ : R (Option Disk)) = _
        rw [hl]; rfl
      | ok kv =>
        refine ⟨.unwrap, ?_⟩
        show ((do
          let kv ← loadData b
          _ : R (Option Unit)) >>= _ : R (Option Disk)) = _
        rw [hl]; rfl
  · intro h1 h2 h3
    unfold testPostorage
    rw [hs, h1, h2]
    rcases h3 with h3 | h3
    · cases h3; rfl
    · cases h3
      cases o <;> rfl

/-- What an accepted run has established, whatever the switches, the files and the choices were.
Sealing: the files are those `seal_and_unseal` makes of a new origin file.  No sealing: no file changed.
Challenging leaves: the origin and the unsealed file exist and agree from the second block on, unless
two different strings hashed for their trees have the same hash. -/
theorem C73_accepted_challenge (H Hs : Bytes → Bytes) (hHs : ∀ x, (Hs x).length = 32) (params : PosPara) (n : Nat)
    (hb : 0 < params.blockL) (hdata : params.dataL = n * params.blockL) (flags : Flags) (par : Nat)
    (ch : RunChoices) (d d' : Disk)
    (h : testPostorage H Hs params flags par ch d = .ok (some d')) :
    (flags.shouldSeal = false → d' = d) ∧
    (flags.shouldSeal = true →
      sealAndUnseal H params { d with origin := some (createRandomFile ch.originRng params.dataL) } ch.ivRng
        flags.shouldUnseal = .ok d') ∧
    (flags.shouldChallengeLeaves = true → ∃ origin unsealed l tree l' tree' root,
      d'.origin = some origin ∧ d'.unsealed = some unsealed ∧
      generateMerkleTreeFromFile Hs unsealed params.dataL params.blockL = .ok (l, tree, root) ∧
      generateMerkleTreeFromFile Hs origin params.dataL params.blockL = .ok (l', tree', root) ∧
      (Collides Hs (innerStrings tree.layers) (innerStrings tree'.layers) ∨
        Collides Hs (leafContents unsealed params.dataL params.blockL)
          (leafContents origin params.dataL params.blockL) ∨
        ∀ x, params.blockL ≤ x → x < (n + 1) * params.blockL → unsealed[x]?.getD 0 = origin[x]?.getD 0)) := by
  unfold testPostorage at h
  rw [bind_eq_ok] at h
  obtain ⟨e, he, h⟩ := h
  rw [bind_eq_ok] at h
  obtain ⟨s, -, h⟩ := h
  have hcases : d' = e ∧ (flags.shouldChallengeLeaves = true → ∃ origin unsealed, e.origin = some origin ∧
      e.unsealed = some unsealed ∧ merkleTreeProof Hs origin unsealed params.dataL params.blockL
        params.leavesToProveCount ch.draw ch.fuel = .ok (some ())) := by
    cases s with
    | none => cases h
    | some s =>
      simp only [] at h
      by_cases hc : flags.shouldChallengeLeaves = true
      · rw [if_pos hc, bind_eq_ok] at h
        obtain ⟨o, ho, h⟩ := h
        rw [bind_eq_ok] at h
        obtain ⟨u, hu, h⟩ := h
        rw [bind_eq_ok] at h
        obtain ⟨a, ha, h⟩ := h
        have ho' : e.origin = some o := by
          cases hx : e.origin with
          | none => rw [hx] at ho; cases ho
          | some x => rw [hx] at ho; cases ho; rfl
        have hu' : e.unsealed = some u := by
          cases hx : e.unsealed with
          | none => rw [hx] at hu; cases hu
          | some x => rw [hx] at hu; cases hu; rfl
        cases a with
        | none => cases h
        | some a => cases h; exact ⟨rfl, fun _ => ⟨o, u, ho', hu', ha⟩⟩
      · rw [if_neg hc] at h
        cases h
        exact ⟨rfl, fun hc' => absurd hc' hc⟩
  obtain ⟨rfl, hch⟩ := hcases
  refine ⟨fun hs => ?_, fun hs => ?_, fun hc => ?_⟩
  · rw [hs] at he
    cases he
    rfl
  · rw [if_pos hs] at he
    exact he
  · obtain ⟨o, u, h1, h2, h3⟩ := hch hc
    rw [hdata] at h3
    obtain ⟨l, tree, l', tree', root, g1, g2, g3⟩ := C70_sound Hs hHs o u n params.blockL _ hb ch.draw ch.fuel h3
    rw [← hdata] at g1 g2 g3
    exact ⟨o, u, l, tree, l', tree', root, h1, h2, g1, g2, g3⟩

/-- The other check: with `should_unseal_single` an accepted run has compared the files it leaves
behind: the sealed file decodes, with the stored public data, to the first ten blocks of the origin
file, sequentially or with any number of threads. -/
theorem C73_accepted_single (H Hs : Bytes → Bytes) (params : PosPara) (flags : Flags) (par : Nat)
    (ch : RunChoices) (d d' : Disk) (hf : flags.shouldUnsealSingle = true)
    (h : testPostorage H Hs params flags par ch d = .ok (some d')) :
    unsealSingleAndVerify H params d' par ch.sched = .ok (some ()) ∧
    (∀ c origin, 0 < params.unitL → params.blockL = c * params.unitL → d'.origin = some origin →
      ∃ sealed pub kv bp outs,
        d'.sealed = some sealed ∧ d'.pubdata = some pub ∧ loadData pub = .ok kv ∧
        batchUnsealPrepare H params sealed 0 (10 * params.blockPl) = .ok bp ∧
        (par = 0 → batchUnseal H params bp.blocksIdx bp.blocks bp.beforeIds bp.dependBlocks kv.1 kv.2 = .ok outs) ∧
        (par ≠ 0 → batchUnsealParallel H params bp.blocksIdx bp.blocks bp.beforeIds bp.dependBlocks kv.1 kv.2 par
          ch.sched = .ok (some outs)) ∧
        ∀ i (hi : i < bp.blocksIdx.length), ∃ out, outs[i]? = some out ∧
          ∀ j < c, ∃ u, out[j]? = some u ∧ params.unitL ≤ u.length ∧ ∀ t < params.unitL,
            u[t]? = some (origin[bp.blocksIdx[i] * params.blockL + j * params.unitL + t]?.getD 0)) := by
  have hsingle : unsealSingleAndVerify H params d' par ch.sched = .ok (some ()) := by
    unfold testPostorage at h
    rw [bind_eq_ok] at h
    obtain ⟨e, -, h⟩ := h
    rw [if_pos hf, bind_eq_ok] at h
    obtain ⟨s, hs, h⟩ := h
    cases s with
    | none => cases h
    | some s =>
      have : d' = e := by
        simp only [] at h
        by_cases hc : flags.shouldChallengeLeaves = true
        · rw [if_pos hc, bind_eq_ok] at h
          obtain ⟨o, -, h⟩ := h
          rw [bind_eq_ok] at h
          obtain ⟨u, -, h⟩ := h
          rw [bind_eq_ok] at h
          obtain ⟨a, -, h⟩ := h
          cases a with
          | none => cases h
          | some a => cases h; rfl
        · rw [if_neg hc] at h
          cases h
          rfl
      rw [this]
      exact hs
  refine ⟨hsingle, ?_⟩
  intro c origin hu hb ho
  obtain ⟨o, sl, un, pb⟩ := d'
  simp only at ho
  subst ho
  cases pb with
  | none => cases hsingle
  | some pub =>
    cases sl with
    | none =>
      exfalso
      unfold unsealSingleAndVerify at hsingle
      rw [bind_eq_ok] at hsingle
      obtain ⟨_, -, hsingle⟩ := hsingle
      rw [bind_eq_ok] at hsingle
      obtain ⟨_, -, hsingle⟩ := hsingle
      cases hsingle
    | some sealed =>
      obtain ⟨kv, bp, outs, h1, h2, h3, h3', h4⟩ :=
        (C72_accepted_iff H params c hu hb origin sealed pub un par ch.sched).mp hsingle
      exact ⟨sealed, pub, kv, bp, outs, rfl, rfl, h1, h2, h3, h3', h4⟩

/-- Both checks in one run: three blocks would be too few for the first one, so ten; accepted with the
file that was retrieved, rejected when it differs from the second block on. -/
example : (match testPostorage toyHash toyHash (toyParams 10 1 0 0 0 1 1) ⟨true, false, false, true⟩ 0
      ⟨fun i => UInt8.ofNat (i * 7 + 1), fun i => UInt8.ofNat i, [], fun i => i, 5⟩ ⟨none, none, none, none⟩ with
    | .ok (some d) => decide (
        testPostorage toyHash toyHash (toyParams 10 1 0 0 0 1 1) ⟨false, false, true, true⟩ 0
          ⟨fun _ => 0, fun _ => 0, [], fun i => i % 10, 5⟩ { d with unsealed := d.origin } =
            .ok (some { d with unsealed := d.origin }) ∧
        testPostorage toyHash toyHash (toyParams 10 1 0 0 0 1 1) ⟨false, false, true, true⟩ 0
          ⟨fun _ => 0, fun _ => 0, [], fun i => i % 10, 5⟩
          { d with unsealed := d.origin.map fun s => s.set 600 (s.getD 600 0 + 1) } = .error .assertion)
    | _ => false) = true := by decide +kernel

/-- The switches do not combine freely: sealing, unsealing and checking the first ten blocks in one
run panics, because the check is run on the file that was unsealed in place.  Ten blocks of one
unit. -/
theorem C73_unseal_then_check_fails :
    testPostorage toyHash toyHash (toyParams 10 1 0 0 0 1 1) ⟨true, true, false, true⟩ 0
      ⟨fun i => UInt8.ofNat (i * 7 + 1), fun i => UInt8.ofNat i, [], fun i => i, 5⟩ ⟨none, none, none, none⟩ =
      .error .assertion ∧
    (∃ d, testPostorage toyHash toyHash (toyParams 10 1 0 0 0 1 1) ⟨true, false, false, true⟩ 0
      ⟨fun i => UInt8.ofNat (i * 7 + 1), fun i => UInt8.ofNat i, [], fun i => i, 5⟩ ⟨none, none, none, none⟩ =
      .ok (some d)) := by
  refine ⟨by decide +kernel, ?_⟩
  have : (match testPostorage toyHash toyHash (toyParams 10 1 0 0 0 1 1) ⟨true, false, false, true⟩ 0
      ⟨fun i => UInt8.ofNat (i * 7 + 1), fun i => UInt8.ofNat i, [], fun i => i, 5⟩ ⟨none, none, none, none⟩ with
      | .ok (some _) => true
      | _ => false) = true := by decide +kernel
  revert this
  generalize testPostorage _ _ _ _ _ _ _ = r
  intro h
  split at h
  · exact ⟨_, rfl⟩
  · cases h

end PoS
