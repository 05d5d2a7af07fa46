import Verif.Model.PostorageRun
import Verif.Properties.PanicRun
import Verif.Properties.Protocol

/-
C132: what `test_postorage` leaves on disk however it ends, and checks repeated on those files.
-/

namespace PoS

/-- The run with its files ends as the run without them: same panic, and on completion the same files. -/
theorem C132_outcome (H Hs : Bytes → Bytes) (params : PosPara) (flags : Flags) (par : Nat) (ch : RunChoices) (d : Disk) :
    (testPostorageRun H Hs params flags par ch d).2 =
      (testPostorage H Hs params flags par ch d).map (Option.map fun _ => ()) ∧
    ∀ e, testPostorageRun H Hs params flags par ch d = (e, .ok (some ())) ↔
      testPostorage H Hs params flags par ch d = .ok (some e) := by
  have hstage : asResult (sealStageRun H params flags ch d) =
      (if flags.shouldSeal then
        sealAndUnseal H params { d with origin := some (createRandomFile ch.originRng params.dataL) } ch.ivRng
          flags.shouldUnseal
      else pure d : R Disk) := by
    unfold sealStageRun
    split_ifs
    · dsimp only
      have ho := C114_outcome H params { d with origin := some (createRandomFile ch.originRng params.dataL) } ch.ivRng
        flags.shouldUnseal
      rcases hr : sealAndUnsealRun H params { d with origin := some (createRandomFile ch.originRng params.dataL) } ch.ivRng
        flags.shouldUnseal with ⟨f, _ | e⟩
      · exact ((ho.1 f).mp hr).symm
      · exact ((ho.2 e).mp (by rw [hr])).symm
    · rfl
  unfold testPostorageRun testPostorage
  rw [← hstage]
  rcases sealStageRun H params flags ch d with ⟨f, _ | e⟩
  swap
  · exact ⟨rfl, fun _ => ⟨fun h => (by cases h), fun h => (by cases h)⟩⟩
  simp only [asResult, bind_ok]
  have hpure : (pure (some ()) : R (Option Unit)) = .ok (some ()) := rfl
  rw [hpure]
  generalize (if flags.shouldUnsealSingle then unsealSingleAndVerify H params f par ch.sched
    else .ok (some ()) : R (Option Unit)) = single
  rcases single with e | _ | u
  · exact ⟨rfl, fun _ => ⟨fun h => (by cases h), fun h => (by cases h)⟩⟩
  · exact ⟨rfl, fun _ => ⟨fun h => (by cases h), fun h => (by cases h)⟩⟩
  simp only [bind_ok]
  split_ifs
  · cases openFile f.origin with
    | error e => exact ⟨rfl, fun _ => ⟨fun h => (by cases h), fun h => (by cases h)⟩⟩
    | ok origin =>
    cases openFile f.unsealed with
    | error e => exact ⟨rfl, fun _ => ⟨fun h => (by cases h), fun h => (by cases h)⟩⟩
    | ok unsealed =>
    simp only [bind_ok]
    rcases merkleTreeProof Hs origin unsealed params.dataL params.blockL params.leavesToProveCount ch.draw ch.fuel
      with e | _ | v
    · exact ⟨rfl, fun _ => ⟨fun h => (by cases h), fun h => (by cases h)⟩⟩
    · exact ⟨rfl, fun _ => ⟨fun h => (by cases h), fun h => (by cases h)⟩⟩
    · refine ⟨rfl, fun e => ⟨fun h => ?_, fun h => ?_⟩⟩
      · rw [← (Prod.mk.inj h).1]; rfl
      · rw [← Option.some.inj (Except.ok.inj h)]
  · refine ⟨rfl, fun e => ⟨fun h => ?_, fun h => ?_⟩⟩
    · rw [← (Prod.mk.inj h).1]; rfl
    · rw [← Option.some.inj (Except.ok.inj h)]

/-- The checks change no file: without the seal switch all files are as before however the run ends, and with it they are
those `seal_and_unseal` leaves on the new origin file, whether or not the checks pass. -/
theorem C132_files (H Hs : Bytes → Bytes) (params : PosPara) (flags : Flags) (par : Nat) (ch : RunChoices) (d : Disk) :
    (flags.shouldSeal = false → (testPostorageRun H Hs params flags par ch d).1 = d) ∧
    (flags.shouldSeal = true → ∀ d2 r, sealAndUnsealRun H params
        { d with origin := some (createRandomFile ch.originRng params.dataL) } ch.ivRng flags.shouldUnseal = (d2, r) →
      (testPostorageRun H Hs params flags par ch d).1 = d2 ∧
      ∀ x, r = some x → (testPostorageRun H Hs params flags par ch d).2 = .error x) := by
  constructor
  · intro hs
    unfold testPostorageRun sealStageRun
    simp only [hs, Bool.false_eq_true, if_false]
    repeat' split
    all_goals rfl
  · intro hs d2 r hr
    unfold testPostorageRun sealStageRun
    simp only [hs, if_true, hr]
    cases r with
    | some e => exact ⟨rfl, fun x hx => by rw [Option.some.inj hx]⟩
    | none =>
      refine ⟨?_, fun x hx => by cases hx⟩
      dsimp only
      repeat' split
      all_goals rfl

/-- Checks can be repeated: after a run whose sealing went through, a run with the same check switches and choices but
without sealing ends in the same way and leaves the same files. -/
theorem C132_repeat (H Hs : Bytes → Bytes) (params : PosPara) (flags : Flags) (par : Nat) (ch : RunChoices) (d d2 : Disk)
    (hs : flags.shouldSeal = true) (hr : sealAndUnsealRun H params
      { d with origin := some (createRandomFile ch.originRng params.dataL) } ch.ivRng flags.shouldUnseal = (d2, none))
    (u : Bool) :
    testPostorageRun H Hs params { flags with shouldSeal := false, shouldUnseal := u } par ch
        (testPostorageRun H Hs params flags par ch d).1 =
      testPostorageRun H Hs params flags par ch d := by
  rw [((C132_files H Hs params flags par ch d).2 hs d2 none hr).1]
  unfold testPostorageRun sealStageRun
  simp only [hs, if_true, hr, Bool.false_eq_true, if_false]

/-- Sealing without unsealing and then challenging the leaves compares the new origin file with the unsealed file of an
earlier run: without such a file the run panics; otherwise it passes if the roots of the two files agree and panics if they
differ. -/
theorem C132_stale (H Hs : Bytes → Bytes) (hHs : ∀ x, (Hs x).length = 32) (params : PosPara) (par : Nat) (ch : RunChoices)
    (d d2 : Disk)
    (hr : sealAndUnsealRun H params { d with origin := some (createRandomFile ch.originRng params.dataL) } ch.ivRng false =
      (d2, none)) :
    (d.unsealed = none → testPostorageRun H Hs params ⟨true, false, true, false⟩ par ch d = (d2, .error .unwrap)) ∧
    ∀ old n indices o u, d.unsealed = some old → params.dataL = n * params.blockL → 0 < params.blockL →
      0 < params.leavesToProveCount → createChallenges ch.draw params.leavesToProveCount 0 n ch.fuel = .ok (some indices) →
      generateMerkleTreeFromFile Hs (createRandomFile ch.originRng params.dataL) params.dataL params.blockL = .ok o →
      generateMerkleTreeFromFile Hs old params.dataL params.blockL = .ok u →
      testPostorageRun H Hs params ⟨true, false, true, false⟩ par ch d =
        (d2, if u.2.2 = o.2.2 then .ok (some ()) else .error .assertion) := by
  have h1 : d2.origin = some (createRandomFile ch.originRng params.dataL) ∧ d2.unsealed = d.unsealed := by
    unfold sealAndUnsealRun at hr
    simp only [openFile, Bool.false_eq_true, if_false] at hr
    generalize padRun (createRandomFile ch.originRng params.dataL) params.dataL params.unitL = run at hr
    rcases run with ⟨f, _ | e⟩
    swap
    · cases hr
    dsimp only at hr
    generalize sealRun H params f (prepareParams params.unitPl ch.ivRng).1 (prepareParams params.unitPl ch.ivRng).2 = run at hr
    rcases run with ⟨g, _ | e⟩
    swap
    · cases hr
    rw [← (Prod.mk.inj hr).1]
    exact ⟨rfl, rfl⟩
  obtain ⟨h1, h2⟩ := h1
  have hstage : sealStageRun H params ⟨true, false, true, false⟩ ch d = (d2, none) := by
    unfold sealStageRun
    rw [if_pos rfl]
    exact hr
  constructor
  · intro hn
    rw [hn] at h2
    unfold testPostorageRun
    rw [hstage]
    simp only [Bool.false_eq_true, if_false, if_true, h1, h2, openFile]
  · intro old n indices o u hold hdata hb hc hch ho hu
    rw [hold] at h2
    unfold testPostorageRun
    rw [hstage]
    simp only [Bool.false_eq_true, if_false, if_true, h1, h2, openFile]
    generalize createRandomFile ch.originRng params.dataL = origin at ho ⊢
    rw [hdata] at ho hu ⊢
    rw [C70_decides Hs hHs origin old n params.blockL params.leavesToProveCount hb hc ch.draw ch.fuel indices hch
      o.1 u.1 o.2.1 u.2.1 o.2.2 u.2.2 ho hu]

end PoS
