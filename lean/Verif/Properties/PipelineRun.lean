import Verif.Model.PipelineRun
import Verif.Properties.PanicRun
import Verif.Properties.TestRuns

/-
C131: what `test_pipeline` leaves on disk when one of its checks fails.
-/

namespace PoS

/-- The run with its files ends as the run without them: same panic, and on completion the same files. -/
theorem C131_outcome (H Hs : Bytes → Bytes) (params : PosPara) (originRng ivRng : Nat → UInt8)
    (count par : Nat) (choices : List RoundChoices) (d : Disk) :
    (pipelineRun H Hs params originRng ivRng count par choices d).2 =
      (pipelineDisk H Hs params originRng ivRng count par choices d).map (Option.map fun _ => ()) ∧
    ∀ e, pipelineRun H Hs params originRng ivRng count par choices d = (e, .ok (some ())) ↔
      pipelineDisk H Hs params originRng ivRng count par choices d = .ok (some e) := by
  unfold pipelineRun pipelineDisk
  dsimp only
  generalize prepareParams params.unitPl ivRng = kv
  generalize createRandomFile originRng params.dataL = origin
  cases generateMerkleTreeFromFile Hs origin params.dataL params.blockL with
  | error e => simp only [bind_error]; exact ⟨rfl, fun _ => ⟨fun h => (by cases h), fun h => (by cases h)⟩⟩
  | ok o =>
  simp only [bind_ok]
  have hp := asResult_padRun origin params.dataL params.unitL
  generalize padRun origin params.dataL params.unitL = run at hp ⊢
  rcases run with ⟨padded, _ | e⟩
  swap
  · rw [← hp]
    simp only [asResult, bind_error]
    exact ⟨rfl, fun _ => ⟨fun h => (by cases h), fun h => (by cases h)⟩⟩
  rw [← hp]
  simp only [asResult, bind_ok]
  cases sealFile H params padded kv.1 kv.2 with
  | error e => simp only [bind_error]; exact ⟨rfl, fun _ => ⟨fun h => (by cases h), fun h => (by cases h)⟩⟩
  | ok st =>
  simp only [bind_ok]
  cases generateMerkleTreeFromData Hs st.ids with
  | error e => simp only [bind_error]; exact ⟨rfl, fun _ => ⟨fun h => (by cases h), fun h => (by cases h)⟩⟩
  | ok t =>
  simp only [bind_ok]
  generalize saveData (d.pubdata.getD []) kv.1 kv.2 = pub
  cases runRounds (challengeRound H Hs params origin st.file pub t.1 t.2.1 t.2.2 count par) choices with
  | error e => simp only [bind_error]; exact ⟨rfl, fun _ => ⟨fun h => (by cases h), fun h => (by cases h)⟩⟩
  | ok a =>
  simp only [bind_ok]
  cases a with
  | none => exact ⟨rfl, fun _ => ⟨fun h => (by cases h), fun h => (by cases h)⟩⟩
  | some a =>
  dsimp only
  have hu := asResult_unsealRun H params st.file kv.1 kv.2
  generalize unsealRun H params st.file kv.1 kv.2 = run at hu ⊢
  rcases run with ⟨g, _ | e⟩
  swap
  · rw [← hu]
    simp only [asResult, bind_error]
    exact ⟨rfl, fun _ => ⟨fun h => (by cases h), fun h => (by cases h)⟩⟩
  rw [← hu]
  simp only [asResult, bind_ok]
  have hc := asResult_compressRun g params.dataL params.unitL params.unitPl
  generalize compressRun g params.dataL params.unitL params.unitPl = run at hc ⊢
  rcases run with ⟨f, _ | e⟩
  swap
  · rw [← hc]
    simp only [asResult, bind_error]
    exact ⟨rfl, fun _ => ⟨fun h => (by cases h), fun h => (by cases h)⟩⟩
  rw [← hc]
  simp only [asResult, bind_ok]
  cases generateMerkleTreeFromFile Hs f params.dataL params.blockL with
  | error e => simp only [bind_error]; exact ⟨rfl, fun _ => ⟨fun h => (by cases h), fun h => (by cases h)⟩⟩
  | ok u =>
  simp only [bind_ok]
  split_ifs
  · refine ⟨rfl, fun e => ⟨fun h => ?_, fun h => ?_⟩⟩
    · rw [← (Prod.mk.inj h).1]; rfl
    · rw [← Option.some.inj (Except.ok.inj h)]
  · exact ⟨rfl, fun _ => ⟨fun h => (by cases h), fun h => (by cases h)⟩⟩

/-- However the run ends, the origin file is the newly created one.  If sealing panics, the public data file and the
unsealed file are as before. -/
theorem C131_seal_fails (H Hs : Bytes → Bytes) (params : PosPara) (originRng ivRng : Nat → UInt8)
    (count par : Nat) (choices : List RoundChoices) (d : Disk) :
    (pipelineRun H Hs params originRng ivRng count par choices d).1.origin =
      some (createRandomFile originRng params.dataL) ∧
    ∀ padded x, copyAndPad (createRandomFile originRng params.dataL) params.dataL params.unitL = .ok padded →
      sealFile H params padded (prepareParams params.unitPl ivRng).1 (prepareParams params.unitPl ivRng).2 = .error x →
      (pipelineRun H Hs params originRng ivRng count par choices d).1.pubdata = d.pubdata ∧
      (pipelineRun H Hs params originRng ivRng count par choices d).1.unsealed = d.unsealed ∧
      ∃ e, (pipelineRun H Hs params originRng ivRng count par choices d).2 = .error e := by
  constructor
  · unfold pipelineRun
    dsimp only
    repeat' split
    all_goals rfl
  · intro padded x hpad hs
    have hp := asResult_padRun (createRandomFile originRng params.dataL) params.dataL params.unitL
    rw [hpad] at hp
    unfold pipelineRun
    dsimp only
    cases generateMerkleTreeFromFile Hs (createRandomFile originRng params.dataL) params.dataL params.blockL with
    | error e => exact ⟨rfl, rfl, e, rfl⟩
    | ok o =>
      rcases hr : padRun (createRandomFile originRng params.dataL) params.dataL params.unitL with ⟨f, _ | e⟩
      · rw [hr] at hp
        have hf : f = padded := Except.ok.inj hp
        subst hf
        simp only [hs]
        exact ⟨trivial, trivial, x, rfl⟩
      · rw [hr] at hp
        cases hp

/-- After a challenge round that panics the sealed file is still the one `seal` made, the key and initial vector can be
loaded from the public data file, and the unsealed file is as before.  (Honest rounds with a challenge and no zero unit do
not panic, C04; what is left are sealings with a zero unit and rounds without a challenge.) -/
theorem C131_round_fails (H Hs : Bytes → Bytes) (params : PosPara) (d : Disk) (originRng ivRng : Nat → UInt8)
    (count par : Nat) (choices : List RoundChoices) (padded : Bytes) (st : SealState)
    (hpad : copyAndPad (createRandomFile originRng params.dataL) params.dataL params.unitL = .ok padded)
    (hseal : sealFile H params padded (prepareParams params.unitPl ivRng).1 (prepareParams params.unitPl ivRng).2 = .ok st)
    (o t : List Bytes × MerkleTree × Bytes)
    (ho : generateMerkleTreeFromFile Hs (createRandomFile originRng params.dataL) params.dataL params.blockL = .ok o)
    (ht : generateMerkleTreeFromData Hs st.ids = .ok t) (x : Panic)
    (hround : runRounds (challengeRound H Hs params (createRandomFile originRng params.dataL) st.file
      (saveData (d.pubdata.getD []) (prepareParams params.unitPl ivRng).1 (prepareParams params.unitPl ivRng).2)
      t.1 t.2.1 t.2.2 count par) choices = .error x) :
    ∃ e pub, pipelineRun H Hs params originRng ivRng count par choices d = (e, .error x) ∧
      e.origin = some (createRandomFile originRng params.dataL) ∧ e.sealed = some st.file ∧ e.unsealed = d.unsealed ∧
      e.pubdata = some pub ∧ loadData pub = .ok (prepareParams params.unitPl ivRng) := by
  have hp := asResult_padRun (createRandomFile originRng params.dataL) params.dataL params.unitL
  rw [hpad] at hp
  rcases hr : padRun (createRandomFile originRng params.dataL) params.dataL params.unitL with ⟨f, _ | e⟩
  swap
  · rw [hr] at hp
    cases hp
  rw [hr] at hp
  have hf : f = padded := Except.ok.inj hp
  subst hf
  have hload := C17_shipped (d.pubdata.getD []) params.unitPl ivRng
  have hrun : pipelineRun H Hs params originRng ivRng count par choices d =
      (⟨some (createRandomFile originRng params.dataL), some st.file, d.unsealed,
        some (saveData (d.pubdata.getD []) (prepareParams params.unitPl ivRng).1 (prepareParams params.unitPl ivRng).2)⟩,
        .error x) := by
    unfold pipelineRun
    simp only [ho, hr, hseal, ht, hround]
  exact ⟨_, _, hrun, rfl, rfl, rfl, rfl, hload⟩

/-- If moreover no unit was zero when it was encoded, unsealing and compressing what such a run left, with the key and
initial vector loaded from disk, gives back the origin file. -/
theorem C131_recovery (H Hs : Bytes → Bytes) (hH : ∀ x, (H x).length = 32) (params : PosPara) (p n c : Nat)
    (cfg : Config params p n c) (hL : params.modeL = 0) (d : Disk)
    (originRng ivRng : Nat → UInt8) (iv : Bytes) (hkey : prepareParams params.unitPl ivRng = ((p : Int), iv))
    (count par : Nat) (choices : List RoundChoices) (padded : Bytes) (st : SealState)
    (hpad : copyAndPad (createRandomFile originRng params.dataL) params.dataL params.unitL = .ok padded)
    (hseal : sealFile H params padded (p : Int) iv = .ok st)
    (hz : NoZeroInput H params padded (p : Int) iv)
    (o t : List Bytes × MerkleTree × Bytes)
    (ho : generateMerkleTreeFromFile Hs (createRandomFile originRng params.dataL) params.dataL params.blockL = .ok o)
    (ht : generateMerkleTreeFromData Hs st.ids = .ok t) (x : Panic)
    (hround : runRounds (challengeRound H Hs params (createRandomFile originRng params.dataL) st.file
      (saveData (d.pubdata.getD []) (p : Int) iv) t.1 t.2.1 t.2.2 count par) choices = .error x) :
    ∃ e file pub kv plain out, pipelineRun H Hs params originRng ivRng count par choices d = (e, .error x) ∧
      e.sealed = some file ∧ e.pubdata = some pub ∧ loadData pub = .ok kv ∧
      unsealFile H params file kv.1 kv.2 = .ok plain ∧
      copyAndCompress plain params.dataL params.unitL params.unitPl = .ok out ∧ e.origin = some out := by
  have hlen : (createRandomFile originRng params.dataL).length = params.dataL := by
    simp [createRandomFile]
  obtain ⟨u1, u2⟩ := C01_round_trip H hH _ _ n c cfg hL _ hlen _ padded st hpad hseal (hz st hseal)
  obtain ⟨e, pub, e1, e2, e3, -, e4, e5⟩ := C131_round_fails H Hs params d originRng ivRng count par choices padded st hpad
    (by rw [hkey]; exact hseal) o t ho ht x (by rw [hkey]; exact hround)
  rw [hkey] at e5
  exact ⟨e, _, pub, _, _, _, e1, e3, e4, e5, u1, u2, e2⟩

/-- When all rounds pass, the sealed file is gone before the roots are compared: whether the comparison succeeds or not,
the sealed file holds the result of unsealing and the unsealed file its compression. -/
theorem C131_root_check (H Hs : Bytes → Bytes) (params : PosPara) (originRng ivRng : Nat → UInt8)
    (count par : Nat) (choices : List RoundChoices) (d : Disk) (padded plain out : Bytes) (st : SealState)
    (hpad : copyAndPad (createRandomFile originRng params.dataL) params.dataL params.unitL = .ok padded)
    (hseal : sealFile H params padded (prepareParams params.unitPl ivRng).1 (prepareParams params.unitPl ivRng).2 = .ok st)
    (o t u : List Bytes × MerkleTree × Bytes)
    (ho : generateMerkleTreeFromFile Hs (createRandomFile originRng params.dataL) params.dataL params.blockL = .ok o)
    (ht : generateMerkleTreeFromData Hs st.ids = .ok t)
    (hround : runRounds (challengeRound H Hs params (createRandomFile originRng params.dataL) st.file
      (saveData (d.pubdata.getD []) (prepareParams params.unitPl ivRng).1 (prepareParams params.unitPl ivRng).2)
      t.1 t.2.1 t.2.2 count par) choices = .ok (some ()))
    (hun : unsealFile H params st.file (prepareParams params.unitPl ivRng).1 (prepareParams params.unitPl ivRng).2 = .ok plain)
    (hco : copyAndCompress plain params.dataL params.unitL params.unitPl = .ok out)
    (hu : generateMerkleTreeFromFile Hs out params.dataL params.blockL = .ok u) :
    ∃ e r, pipelineRun H Hs params originRng ivRng count par choices d = (e, r) ∧
      e.sealed = some plain ∧ e.unsealed = some out ∧
      (r = .ok (some ()) ↔ o.2.2 = u.2.2) ∧ (o.2.2 ≠ u.2.2 → r = .error .assertion) := by
  have ok {σ : Type} {r : σ × Option Panic} {s : σ} (h : asResult r = .ok s) : r = (s, none) := by
    rcases r with ⟨f, _ | e⟩
    · rw [Except.ok.inj h]
    · cases h
  have h1 := ok ((asResult_padRun _ _ _).trans hpad)
  have h2 := ok ((asResult_unsealRun _ _ _ _ _).trans hun)
  have h3 := ok ((asResult_compressRun _ _ _ _).trans hco)
  unfold pipelineRun
  simp only [ho, h1, hseal, ht, hround, h2, h3, hu]
  split_ifs with hroot
  · exact ⟨_, _, rfl, rfl, rfl, ⟨fun _ => hroot, fun _ => rfl⟩, fun h => absurd hroot h⟩
  · exact ⟨_, _, rfl, rfl, rfl, ⟨fun h => (by cases h), fun h => absurd h hroot⟩, fun _ => rfl⟩

/-- The files left are always those of a run of `seal_and_unseal` on the newly created origin file: with the final
unsealing if all rounds passed, and without it if the identifiers could not be committed to or a round did not pass.  If
already the tree of the origin file cannot be built, only the origin file has changed; and a panic of padding or sealing is
the panic of that run. -/
theorem C131_files (H Hs : Bytes → Bytes) (params : PosPara) (originRng ivRng : Nat → UInt8)
    (count par : Nat) (choices : List RoundChoices) (d d1 : Disk)
    (hd1 : d1 = { d with origin := some (createRandomFile originRng params.dataL) }) :
    (∀ x, generateMerkleTreeFromFile Hs (createRandomFile originRng params.dataL) params.dataL params.blockL = .error x →
      pipelineRun H Hs params originRng ivRng count par choices d = (d1, .error x)) ∧
    ∀ o, generateMerkleTreeFromFile Hs (createRandomFile originRng params.dataL) params.dataL params.blockL = .ok o →
      (∀ d2 x, sealAndUnsealRun H params d1 ivRng false = (d2, some x) →
        pipelineRun H Hs params originRng ivRng count par choices d = (d2, .error x)) ∧
      ∀ padded st d2, copyAndPad (createRandomFile originRng params.dataL) params.dataL params.unitL = .ok padded →
        sealFile H params padded (prepareParams params.unitPl ivRng).1 (prepareParams params.unitPl ivRng).2 = .ok st →
        sealAndUnsealRun H params d1 ivRng false = (d2, none) →
        (∀ x, generateMerkleTreeFromData Hs st.ids = .error x →
          pipelineRun H Hs params originRng ivRng count par choices d = (d2, .error x)) ∧
        ∀ t r, generateMerkleTreeFromData Hs st.ids = .ok t →
          runRounds (challengeRound H Hs params (createRandomFile originRng params.dataL) st.file (d2.pubdata.getD [])
            t.1 t.2.1 t.2.2 count par) choices = r →
          (r ≠ .ok (some ()) → pipelineRun H Hs params originRng ivRng count par choices d = (d2, r)) ∧
          (r = .ok (some ()) → (pipelineRun H Hs params originRng ivRng count par choices d).1 =
              (sealAndUnsealRun H params d1 ivRng true).1 ∧
            ∀ x, (sealAndUnsealRun H params d1 ivRng true).2 = some x →
              (pipelineRun H Hs params originRng ivRng count par choices d).2 = .error x) := by
  subst hd1
  unfold pipelineRun sealAndUnsealRun
  simp only [openFile]
  generalize createRandomFile originRng params.dataL = origin
  generalize prepareParams params.unitPl ivRng = kv
  refine ⟨fun x hx => by simp only [hx], fun o ho => ?_⟩
  simp only [ho]
  have hp := asResult_padRun origin params.dataL params.unitL
  generalize padRun origin params.dataL params.unitL = run at hp ⊢
  rcases run with ⟨padded, _ | e⟩
  swap
  · refine ⟨fun d2 x h => ?_, fun padded st d2 _ _ h => by cases h⟩
    cases h
    rfl
  have hs := asResult_sealRun H params padded kv.1 kv.2
  simp only [Bool.false_eq_true, if_false, if_true]
  generalize sealRun H params padded kv.1 kv.2 = run at hs ⊢
  rcases run with ⟨f, _ | e⟩
  swap
  · refine ⟨fun d2 x h => ?_, fun padded' st d2 _ _ h => by cases h⟩
    cases h
    cases hq : sealFile H params padded kv.1 kv.2 with
    | ok st => rw [hq] at hs; cases hs
    | error y => rw [hq] at hs; cases hs; rfl
  dsimp only
  refine ⟨fun d2 x h => (by cases h), fun padded' st d2 hpad hseal h => ?_⟩
  have hpp : padded = padded' := by rw [hpad] at hp; exact Except.ok.inj hp
  subst hpp
  rw [hseal] at hs
  have hf : f = st.file := Except.ok.inj hs
  subst hf
  simp only [hseal]
  have hd2 := (Prod.mk.inj h).1
  subst hd2
  refine ⟨fun x hx => by simp only [hx], fun t r ht hr => ?_⟩
  simp only [Option.getD_some] at hr
  simp only [ht, hr]
  refine ⟨fun hne => ?_, fun he => ?_⟩
  · rcases r with e | _ | u
    · rfl
    · rfl
    · exact absurd rfl hne
  · subst he
    dsimp only
    rcases unsealRun H params st.file kv.1 kv.2 with ⟨g, _ | e⟩
    swap
    · exact ⟨rfl, fun x hx => by rw [Option.some.inj hx]⟩
    dsimp only
    rcases compressRun g params.dataL params.unitL params.unitPl with ⟨w, _ | e⟩
    swap
    · exact ⟨rfl, fun x hx => by rw [Option.some.inj hx]⟩
    dsimp only
    refine ⟨?_, fun x hx => by cases hx⟩
    repeat' split
    all_goals rfl

end PoS
