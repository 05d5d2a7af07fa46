import Verif.Model.PipelineDisk
import Verif.Properties.Workflow
import Verif.Properties.Detection

/-
C129: what the two tests of postorage.rs make of each other's files.
-/

namespace PoS

/-- The check of the first ten blocks on any file that is long enough, with hash-chosen long dependencies: it passes
exactly if unsealing and compressing that whole file restores the first ten blocks of the original; and without threads it
otherwise panics. -/
theorem C129_check_any_file (H : Bytes → Bytes) (hH : ∀ x, (H x).length = 32) (params : PosPara) (p n c : Nat)
    (cfg : Config params p n c) (hL : params.modeL = 0) (hS : ShortModeOk params n c) (hn : LongCountOk n params.cntL)
    (h10 : 10 ≤ n) (origin pub iv : Bytes) (hload : loadData pub = .ok ((p : Int), iv)) (un : Option Bytes)
    (file : Bytes) (hlen : n * params.blockPl ≤ file.length) :
    ∃ out plain, unsealFile H params file (p : Int) iv = .ok out ∧
      copyAndCompress out params.dataL params.unitL params.unitPl = .ok plain ∧
      (∀ sched, unsealSingleAndVerify H params ⟨some origin, some file, un, some pub⟩ 0 sched = .ok (some ()) ↔
        ∀ k < 10, Restored params origin plain k) ∧
      (∀ sched, ¬ (∀ k < 10, Restored params origin plain k) →
        ∃ e, unsealSingleAndVerify H params ⟨some origin, some file, un, some pub⟩ 0 sched = .error e) := by
  -- any commitment will do: the check has none
  set Hs : Bytes → Bytes := fun _ => List.replicate 32 0 with hHsd
  have hHs : ∀ x, (Hs x).length = 32 := fun x => by simp [hHsd]
  obtain ⟨leaves, tree, root, -, hm, -, -, -⟩ := C31_completeness Hs hHs (List.replicate n [])
    (by intro h; have := congrArg List.length h; simp at this; omega) [0] (by simp) (by simp)
    (by simp; omega)
  obtain ⟨out, plain, o1, o2, -, o4⟩ := C91_any_file H Hs hH hHs params p n c cfg hL hS hn origin pub iv hload
    (List.replicate n []) (by simp) leaves tree root hm file hlen
  have hlt : ∀ k ∈ List.range 10, k < n := fun k hk => by have := List.mem_range.mp hk; omega
  obtain ⟨resp, r1, r2, -⟩ := o4 0 (List.range 10) (List.pairwise_lt_range) (by simp) hlt
  have hbpl : 0 < params.blockPl := by
    rw [cfg.block_pl, cfg.unit_pl]; exact Nat.mul_pos cfg.c_pos (by omega)
  have hI : blocksIdxOf params.blockPl 0 (10 * params.blockPl) = .ok (List.range 10) := by
    rw [blocksIdxOf_eq hbpl]
    have : (10 * params.blockPl - 0 + params.blockPl - 1) / params.blockPl = 10 := by
      rw [Nat.sub_zero, Nat.add_sub_assoc hbpl, Nat.add_comm, Nat.add_mul_div_right _ _ hbpl,
        Nat.div_eq_of_lt (by omega), Nat.zero_add]
    rw [this]
    simp
  have hidx : idxsLOf params n = .ok [] := by unfold idxsLOf; rw [if_neg (by simp [hL])]; rfl
  have hprep := batchUnsealPrepare_eq (H := H) (file := file) hI cfg.div hidx
    (fun k _ => prepare_any hH cfg hL hn file (k := k))
  have hresp : resp.blocks = (List.range 10).map (fun k => plainUnits params c file k) ∧
      resp.beforeIds = (List.range 10).map (fun k =>
        if k ≠ 0 then H (readFile file ((k - 1) * params.blockPl) params.blockPl) else []) ∧
      resp.dependBlocks = (List.range 10).map (fun k =>
        (hashLong H n params.cntL (H (readFile file ((k - 1) * params.blockPl) params.blockPl)) k).map
          (plainUnits params c file)) := by
    unfold proverRespond at r1
    rw [proverLoop_eq (List.range 10) (fun k _ => prepare_any hH cfg hL hn file)] at r1
    simp only [bind_ok] at r1
    rw [bind_eq_ok] at r1
    obtain ⟨proof, -, r1⟩ := r1
    have r1 := Except.ok.inj r1
    rw [← r1]
    exact ⟨by simp, by simp, by simp⟩
  have hiff : ∀ sched, unsealSingleAndVerify H params ⟨some origin, some file, un, some pub⟩ 0 sched = .ok (some ()) ↔
      verifierCheck H Hs params origin pub leaves root 0 (List.range 10) resp 0 [] = .ok (some ()) := by
    intro sched
    rw [C72_accepted_iff H params c cfg.unit_pos cfg.block, C74_accepted_iff H Hs params c cfg.unit_pos cfg.block]
    have hother : resp.hash = H (0 :: (resp.blocks.map List.flatten).flatten) ∧
        verifyMerkleProof Hs resp.proof root (List.range 10) leaves = .ok () := by
      obtain ⟨lv, tr, ro, proof, m1, -, m2, m3⟩ := C31_completeness Hs hHs (List.replicate n [])
        (by intro h; have := congrArg List.length h; simp at this; omega) (List.range 10) List.pairwise_lt_range
        (by simp) (fun k hk => by rw [List.length_replicate]; exact hlt k hk)
      rw [hm] at m1
      cases m1
      unfold proverRespond at r1
      rw [proverLoop_eq (List.range 10) (fun k _ => prepare_any hH cfg hL hn file)] at r1
      simp only [bind_ok] at r1
      rw [m2, bind_ok] at r1
      have r1 := Except.ok.inj r1
      rw [← r1]
      exact ⟨by simp, m3⟩
    rw [hresp.1, hresp.2.1, hresp.2.2]
    constructor
    · rintro ⟨kv, bp, outs, h1, h2, h3, h4, h5⟩
      rw [hprep] at h2
      cases h2
      rw [hresp.1] at hother
      exact ⟨hother.1, hother.2, kv.1, kv.2, outs, h1, h3, h4, h5⟩
    · rintro ⟨-, -, key, iv', outs, h1, h3, h4, h5⟩
      exact ⟨(key, iv'), _, outs, h1, hprep, h3, h4, h5⟩
  have hall : ∀ sched, unsealSingleAndVerify H params ⟨some origin, some file, un, some pub⟩ 0 sched = .ok (some ()) ↔
      ∀ k < 10, Restored params origin plain k := by
    intro sched
    rw [hiff, r2]
    simp only [List.mem_range]
  refine ⟨out, plain, o1, o2, hall, fun sched hno => ?_⟩
  cases hres : unsealSingleAndVerify H params ⟨some origin, some file, un, some pub⟩ 0 sched with
  | error e => exact ⟨e, rfl⟩
  | ok a =>
    cases a with
    | some a => exact absurd ((hall sched).mp hres) hno
    | none =>
      exfalso
      unfold unsealSingleAndVerify at hres
      simp only [openFile, bind_ok, if_true] at hres
      rw [bind_eq_ok] at hres
      obtain ⟨kv, -, hres⟩ := hres
      rw [bind_eq_ok] at hres
      obtain ⟨bp, -, hres⟩ := hres
      rw [bind_eq_ok] at hres
      obtain ⟨o, h1, hres⟩ := hres
      rw [bind_eq_ok] at h1
      obtain ⟨outs, -, h1⟩ := h1
      cases h1
      simp only [] at hres
      rw [bind_eq_ok] at hres
      obtain ⟨-, -, hres⟩ := hres
      cases hres

/-- The verdict of `test_pipeline` is that of `pipeline` (C04, C69) on the file it creates, whatever is on the disk; and
what it leaves in the origin, sealed and unsealed files does not depend on what was there. -/
theorem C129_old_files_ignored (H Hs : Bytes → Bytes) (params : PosPara) (originRng ivRng : Nat → UInt8)
    (count par : Nat) (choices : List RoundChoices) (d d' : Disk) :
    (pipelineDisk H Hs params originRng ivRng count par choices d).map (Option.map fun _ => ()) =
      pipeline H Hs params (createRandomFile originRng params.dataL) (d'.pubdata.getD []) ivRng count par choices ∧
    (pipelineDisk H Hs params originRng ivRng count par choices d).map
        (Option.map fun e => (e.origin, e.sealed, e.unsealed)) =
      (pipelineDisk H Hs params originRng ivRng count par choices d').map
        (Option.map fun e => (e.origin, e.sealed, e.unsealed)) ∧
    ∀ e, pipelineDisk H Hs params originRng ivRng count par choices d = .ok (some e) →
      ∃ pub, e.pubdata = some pub ∧ loadData pub = .ok (prepareParams params.unitPl ivRng) := by
  have hload : ∀ old, loadData (saveData old (prepareParams params.unitPl ivRng).1 (prepareParams params.unitPl ivRng).2) =
      .ok (prepareParams params.unitPl ivRng) := fun old => C17_shipped old _ _
  unfold pipelineDisk pipeline
  dsimp only
  generalize prepareParams params.unitPl ivRng = kv at hload ⊢
  generalize createRandomFile originRng params.dataL = origin
  have hround : ∀ (st : Bytes) (t : List Bytes × MerkleTree × Bytes) (old old' : Bytes),
      challengeRound H Hs params origin st (saveData old kv.1 kv.2) t.1 t.2.1 t.2.2 count par =
      challengeRound H Hs params origin st (saveData old' kv.1 kv.2) t.1 t.2.1 t.2.2 count par := by
    intro st t old old'
    funext ch
    unfold challengeRound verifierCheck
    simp only [hload]
  cases generateMerkleTreeFromFile Hs origin params.dataL params.blockL with
  | error err =>
    simp only [bind_error]
    exact ⟨rfl, trivial, fun e h => by cases h⟩
  | ok o =>
  simp only [bind_ok]
  cases copyAndPad origin params.dataL params.unitL with
  | error err =>
    simp only [bind_error]
    exact ⟨rfl, trivial, fun e h => by cases h⟩
  | ok padded =>
  simp only [bind_ok]
  cases sealFile H params padded kv.1 kv.2 with
  | error err =>
    simp only [bind_error]
    exact ⟨rfl, trivial, fun e h => by cases h⟩
  | ok st =>
  simp only [bind_ok]
  cases generateMerkleTreeFromData Hs st.ids with
  | error err =>
    simp only [bind_error]
    exact ⟨rfl, trivial, fun e h => by cases h⟩
  | ok t =>
  simp only [bind_ok]
  rw [hround st.file t (d.pubdata.getD []) (d'.pubdata.getD [])]
  cases runRounds (challengeRound H Hs params origin st.file (saveData (d'.pubdata.getD []) kv.1 kv.2) t.1 t.2.1 t.2.2
      count par) choices with
  | error err =>
    simp only [bind_error]
    exact ⟨rfl, trivial, fun e h => by cases h⟩
  | ok a =>
  simp only [bind_ok]
  cases a with
  | none => exact ⟨rfl, rfl, fun e h => by cases h⟩
  | some a =>
  simp only []
  cases unsealFile H params st.file kv.1 kv.2 with
  | error err =>
    simp only [bind_error]
    exact ⟨rfl, trivial, fun e h => by cases h⟩
  | ok plain =>
  simp only [bind_ok]
  cases copyAndCompress plain params.dataL params.unitL params.unitPl with
  | error err =>
    simp only [bind_error]
    exact ⟨rfl, trivial, fun e h => by cases h⟩
  | ok un =>
  simp only [bind_ok]
  cases generateMerkleTreeFromFile Hs un params.dataL params.blockL with
  | error err =>
    simp only [bind_error]
    exact ⟨rfl, trivial, fun e h => by cases h⟩
  | ok u =>
  simp only [bind_ok]
  by_cases hr : o.2.2 = u.2.2
  · rw [if_pos hr, if_pos hr, if_pos hr]
    refine ⟨rfl, rfl, fun e h => ?_⟩
    have h := Option.some.inj (Except.ok.inj h)
    rw [← h]
    exact ⟨_, rfl, hload _⟩
  · rw [if_neg hr, if_neg hr, if_neg hr]
    exact ⟨rfl, rfl, fun e h => by cases h⟩

/-- A completed run of `test_pipeline`, on any files, with hash-chosen long dependencies and no zero encoder input: the
origin and the unsealed file are the file it created, and in place of the sealed file there is the padded original. -/
theorem C129_pipeline_files (H Hs : Bytes → Bytes) (hH : ∀ x, (H x).length = 32) (params : PosPara) (p n c : Nat)
    (cfg : Config params p n c) (hL : params.modeL = 0) (d e : Disk)
    (originRng ivRng : Nat → UInt8) (iv : Bytes) (hkey : prepareParams params.unitPl ivRng = ((p : Int), iv))
    (count par : Nat) (choices : List RoundChoices) (padded : Bytes)
    (hpad : copyAndPad (createRandomFile originRng params.dataL) params.dataL params.unitL = .ok padded)
    (hz : NoZeroInput H params padded (p : Int) iv)
    (h : pipelineDisk H Hs params originRng ivRng count par choices d = .ok (some e)) :
    e.origin = some (createRandomFile originRng params.dataL) ∧ e.unsealed = e.origin ∧
    e.sealed = some padded ∧ ∃ pub, e.pubdata = some pub ∧ loadData pub = .ok ((p : Int), iv) := by
  have hlen : (createRandomFile originRng params.dataL).length = params.dataL := by
    simp [createRandomFile]
  obtain ⟨pub, p1, p2⟩ := (C129_old_files_ignored H Hs params originRng ivRng count par choices d d).2.2 e h
  rw [hkey] at p2
  unfold pipelineDisk at h
  simp only [hkey] at h
  rw [bind_eq_ok] at h
  obtain ⟨o, -, h⟩ := h
  rw [hpad, bind_ok, bind_eq_ok] at h
  obtain ⟨st, g2, h⟩ := h
  obtain ⟨u1, u2⟩ := C01_round_trip H hH _ _ n c cfg hL _ hlen _ padded st hpad g2 (hz st g2)
  rw [bind_eq_ok] at h
  obtain ⟨t, -, h⟩ := h
  rw [bind_eq_ok] at h
  obtain ⟨a, -, h⟩ := h
  cases a with
  | none => cases h
  | some a =>
    simp only [] at h
    rw [u1, bind_ok, u2, bind_ok, bind_eq_ok] at h
    obtain ⟨u, -, h⟩ := h
    split at h
    · have h := Option.some.inj (Except.ok.inj h)
      subst h
      exact ⟨rfl, rfl, rfl, pub, p1, p2⟩
    · cases h

/-- `test` after a completed `test_pipeline`, with parameters of its own for units of the same size and not more of them:
it passes exactly if unsealing the padded original once more, with the parameters of `test`, and compressing the result
gives back the first ten blocks of the original, and otherwise it panics.  No file changes. -/
theorem C129_test_after_pipeline (H Hs : Bytes → Bytes) (hH : ∀ x, (H x).length = 32)
    (params params' : PosPara) (p n c n' c' : Nat) (cfg : Config params p n c) (hL : params.modeL = 0)
    (cfg' : Config params' p n' c') (hL' : params'.modeL = 0) (hS' : ShortModeOk params' n' c')
    (hn' : LongCountOk n' params'.cntL) (h10 : 10 ≤ n') (hunit : params'.unitL = params.unitL) (hle : n' * c' ≤ n * c)
    (d e : Disk) (originRng ivRng : Nat → UInt8) (iv : Bytes)
    (hkey : prepareParams params.unitPl ivRng = ((p : Int), iv))
    (count par : Nat) (choices : List RoundChoices) (padded : Bytes)
    (hpad : copyAndPad (createRandomFile originRng params.dataL) params.dataL params.unitL = .ok padded)
    (hz : NoZeroInput H params padded (p : Int) iv)
    (h : pipelineDisk H Hs params originRng ivRng count par choices d = .ok (some e)) (ch : RunChoices) :
    ∃ out plain, unsealFile H params' padded (p : Int) iv = .ok out ∧
      copyAndCompress out params'.dataL params'.unitL params'.unitPl = .ok plain ∧
      (singleTest H Hs params' ch e = .ok (some e) ↔
        ∀ k < 10, Restored params' (createRandomFile originRng params.dataL) plain k) ∧
      (singleTest H Hs params' ch e = .ok (some e) ∨ ∃ err, singleTest H Hs params' ch e = .error err) := by
  obtain ⟨e1, e2, e3, pub, e4, e5⟩ := C129_pipeline_files H Hs hH params p n c cfg hL d e originRng ivRng iv hkey count par
    choices padded hpad hz h
  have hlen : (createRandomFile originRng params.dataL).length = params.dataL := by
    simp [createRandomFile]
  obtain ⟨pd, g1, g2, -, -⟩ := padded_unitsBelow cfg hlen
  rw [hpad] at g1
  cases g1
  have hfile : n' * params'.blockPl ≤ padded.length := by
    rw [g2, cfg.block_pl, cfg'.block_pl, cfg.unit_pl, cfg'.unit_pl, hunit, ← Nat.mul_assoc, ← Nat.mul_assoc]
    exact Nat.mul_le_mul_right _ hle
  obtain ⟨out, plain, a1, a2, a3, a4⟩ := C129_check_any_file H hH params' p n' c' cfg' hL' hS' hn' h10
    (createRandomFile originRng params.dataL) pub iv e5 e.unsealed padded hfile
  have he : e = ⟨some (createRandomFile originRng params.dataL), some padded, e.unsealed, some pub⟩ := by
    rw [← e1, ← e3, ← e4]
  have hrun : singleTest H Hs params' ch e =
      (unsealSingleAndVerify H params' e 0 ch.sched >>= fun a => match a with
        | none => pure none
        | some () => pure (some e)) := by
    unfold singleTest testPostorage
    simp only [Bool.false_eq_true, if_false, if_true]
    rfl
  refine ⟨out, plain, a1, a2, ?_, ?_⟩
  · rw [← a3 ch.sched, ← he, hrun]
    constructor
    · intro h
      rw [bind_eq_ok] at h
      obtain ⟨a, h1, h2⟩ := h
      cases a with
      | none => cases h2
      | some a => exact h1
    · intro h
      rw [h]
      rfl
  · by_cases hr : ∀ k < 10, Restored params' (createRandomFile originRng params.dataL) plain k
    · left
      rw [hrun, he, (a3 ch.sched).mpr hr]
      rfl
    · right
      obtain ⟨err, h⟩ := a4 ch.sched hr
      refine ⟨err, ?_⟩
      rw [hrun, he, h]
      rfl

/-- The two tests as shipped, for any two shipped sets of which that of `test` is not the larger (16 and 1 in the
code). -/
theorem C129_shipped (H Hs : Bytes → Bytes) (hH : ∀ x, (H x).length = 32) (l' l : Nat)
    (hle : (genPosdata l').dataL ≤ (genPosdata l).dataL) (d e : Disk)
    (originRng ivRng : Nat → UInt8) (count par : Nat) (choices : List RoundChoices) (padded : Bytes)
    (hpad : copyAndPad (createRandomFile originRng (genPosdata l).dataL) (genPosdata l).dataL (genPosdata l).unitL =
      .ok padded)
    (hz : NoZeroInput H (genPosdata l) padded P_512 ((List.range 128).map ivRng))
    (h : pipelineDisk H Hs (genPosdata l) originRng ivRng count par choices d = .ok (some e)) (ch : RunChoices) :
    e.unsealed = some (createRandomFile originRng (genPosdata l).dataL) ∧ e.sealed = some padded ∧
    ∃ out plain, unsealFile H (genPosdata l') padded P_512 ((List.range 128).map ivRng) = .ok out ∧
      copyAndCompress out (genPosdata l').dataL (genPosdata l').unitL (genPosdata l').unitPl = .ok plain ∧
      (singleTest H Hs (genPosdata l') ch e = .ok (some e) ↔
        ∀ k < 10, Restored (genPosdata l') (createRandomFile originRng (genPosdata l).dataL) plain k) ∧
      (singleTest H Hs (genPosdata l') ch e = .ok (some e) ∨ ∃ err, singleTest H Hs (genPosdata l') ch e = .error err) := by
  obtain ⟨c, hc, cfg, hL, hS⟩ := genPosdata_config l _ prime_P_512 (by norm_num) (by norm_num) (by norm_num)
  obtain ⟨c', hc', cfg', hL', hS'⟩ := genPosdata_config l' _ prime_P_512 (by norm_num) (by norm_num) (by norm_num)
  have hunit : ∀ l, (genPosdata l).unitL = 63 := by intro l; unfold genPosdata; split_ifs <;> rfl
  have hcc : c' ≤ c := by
    have h1 := cfg.data
    have h2 := cfg'.data
    rw [cfg.block, hunit] at h1
    rw [cfg'.block, hunit] at h2
    omega
  obtain ⟨oL, oS⟩ := hashModes_ok (n := 256) (c := c') hL' hS' (by omega) (by omega)
  obtain ⟨e1, e2, e3, -⟩ := C129_pipeline_files H Hs hH _ _ 256 c cfg hL d e originRng ivRng _ (genPosdata_key l ivRng) count
    par choices padded hpad hz h
  exact ⟨e2.trans e1, e3, C129_test_after_pipeline H Hs hH _ _ _ 256 c 256 c' cfg hL cfg' hL' oS (oL.1 hL') (by norm_num)
    ((hunit l').trans (hunit l).symm) (by omega) d e originRng ivRng _ (genPosdata_key l ivRng) count par choices padded hpad hz
    h ch⟩

/-- Ten blocks of one unit.  The same check, with the same parameters: it panics on an empty disk and after a completed
`test_pipeline`, which leaves the padded original, and passes after a run that only seals. -/
example : (match pipelineDisk toyHash toyHash (toyParams 10 1 0 0 0 1 1) (fun i => UInt8.ofNat (i * i + 7))
      (fun i => UInt8.ofNat i) 2 0 [⟨7, fun i => 2 * i % 10, 4, []⟩] ⟨none, none, none, none⟩,
      testPostorage toyHash toyHash (toyParams 10 1 0 0 0 1 1) ⟨true, false, false, false⟩ 0
        ⟨fun i => UInt8.ofNat (i * i + 7), fun i => UInt8.ofNat i, [], fun i => i, 0⟩ ⟨none, none, none, none⟩ with
    | .ok (some d), .ok (some e) => decide (d.origin = e.origin ∧ d.pubdata = e.pubdata ∧ d.unsealed = d.origin ∧
        singleTest toyHash toyHash (toyParams 10 1 0 0 0 1 1) ⟨fun _ => 0, fun _ => 0, [], fun i => i, 0⟩
          ⟨none, none, none, none⟩ = .error .unwrap ∧
        singleTest toyHash toyHash (toyParams 10 1 0 0 0 1 1) ⟨fun _ => 0, fun _ => 0, [], fun i => i, 0⟩ d =
          .error .assertion ∧
        singleTest toyHash toyHash (toyParams 10 1 0 0 0 1 1) ⟨fun _ => 0, fun _ => 0, [], fun i => i, 0⟩ e =
          .ok (some e))
    | _, _ => false) = true := by decide +kernel

end PoS
