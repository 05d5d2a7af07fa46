import Verif.Model.PanicRun
import Verif.Properties.Unsealing
import Verif.Properties.Detection
import Verif.Properties.Workflow

/-
C114: what a panicking run of `seal`, `unseal` or `seal_and_unseal` leaves on disk.
-/

set_option linter.unusedSectionVars false

namespace PoS

/-! ### loops that survive a panic -/

theorem runUp_ok {σ : Type} {n : Nat} {f : Nat → σ → R σ} {s t : σ} (h : forUp n f s = .ok t) :
    runUp n f s = (t, none) := by
  induction n generalizing t with
  | zero => rw [forUp_zero] at h; cases h; rfl
  | succ n ih =>
    rw [forUp_succ, bind_eq_ok] at h
    obtain ⟨u, h1, h2⟩ := h
    simp only [runUp, ih h1, h2]

theorem runUp_error {σ : Type} {n : Nat} {f : Nat → σ → R σ} {s t : σ} {m : Nat} {e : Panic} (hm : m < n)
    (h : forUp m f s = .ok t) (he : f m t = .error e) : runUp n f s = (t, some e) := by
  induction n with
  | zero => omega
  | succ n ih =>
    rcases Nat.lt_or_ge m n with h' | h'
    · simp only [runUp, ih h']
    · obtain rfl : m = n := by omega
      simp only [runUp, runUp_ok h, he]

theorem runUp_cases {σ : Type} (n : Nat) (f : Nat → σ → R σ) (s : σ) :
    (∃ t, forUp n f s = .ok t ∧ runUp n f s = (t, none)) ∨
    (∃ m t e, m < n ∧ forUp m f s = .ok t ∧ f m t = .error e ∧ forUp n f s = .error e ∧ runUp n f s = (t, some e)) := by
  induction n with
  | zero => exact Or.inl ⟨s, forUp_zero _ _, rfl⟩
  | succ n ih =>
    rcases ih with ⟨t, h1, h2⟩ | ⟨m, t, e, hm, h1, h2, h3, h4⟩
    · cases hf : f n t with
      | ok u => exact Or.inl ⟨u, by rw [forUp_succ, h1, bind_ok, hf], by simp only [runUp, h2, hf]⟩
      | error e =>
        exact Or.inr ⟨n, t, e, by omega, h1, hf, by rw [forUp_succ, h1, bind_ok, hf], by simp only [runUp, h2, hf]⟩
    · exact Or.inr ⟨m, t, e, by omega, h1, h2, by rw [forUp_succ, h3]; rfl, by simp only [runUp, h4]⟩

/-- How a run looks to a caller that does not look at the files. -/
def asResult {σ : Type} : σ × Option Panic → R σ
  | (t, none) => .ok t
  | (_, some e) => .error e

theorem asResult_runUp {σ : Type} (n : Nat) (f : Nat → σ → R σ) (s : σ) : asResult (runUp n f s) = forUp n f s := by
  rcases runUp_cases n f s with ⟨t, h1, h2⟩ | ⟨m, t, e, -, -, -, h3, h4⟩
  · rw [h1, h2]; rfl
  · rw [h3, h4]; rfl

theorem asResult_padRun (origin : Bytes) (dataL unitL : Nat) :
    asResult (padRun origin dataL unitL) = copyAndPad origin dataL unitL := by
  unfold padRun copyAndPad
  cases div! dataL unitL with
  | error e => rfl
  | ok n => exact asResult_runUp _ _ _

theorem asResult_compressRun (origin : Bytes) (dataL unitL unitPl : Nat) :
    asResult (compressRun origin dataL unitL unitPl) = copyAndCompress origin dataL unitL unitPl := by
  unfold compressRun copyAndCompress
  cases div! dataL unitL with
  | error e => rfl
  | ok n => exact asResult_runUp _ _ _

theorem asResult_sealRun (H : Bytes → Bytes) (params : PosPara) (file : Bytes) (key : Int) (iv : Bytes) :
    asResult (sealRun H params file key iv) = (sealFile H params file key iv).map SealState.file := by
  unfold sealRun sealFile sealPrefix
  cases hd : div! params.dataL params.blockL with
  | error e => rfl
  | ok n =>
    simp only [bind_ok]
    cases hl : idxsLOf params n with
    | error e => rfl
    | ok tL =>
      cases hs : idxsSOf params n with
      | error e => rfl
      | ok tS =>
        simp only [bind_ok, pure_eq_ok]
        rcases runUp_cases n (fun idx2 s => sealBlock H params key iv n tL tS idx2 s)
          { file := file, ids := List.replicate n [], log := [] } with ⟨t, h1, h2⟩ | ⟨m, t, e, -, -, -, h3, h4⟩
        · rw [h1, h2]; rfl
        · rw [h3, h4]; rfl

theorem asResult_unsealRun (H : Bytes → Bytes) (params : PosPara) (file : Bytes) (key : Int) (iv : Bytes) :
    asResult (unsealRun H params file key iv) = unsealFile H params file key iv := by
  unfold unsealRun unsealFile unsealFrom
  cases hd : div! params.dataL params.blockL with
  | error e => rfl
  | ok n =>
    simp only [bind_ok]
    cases hl : idxsLOf params n with
    | error e => rfl
    | ok tL =>
      cases hs : idxsSOf params n with
      | error e => rfl
      | ok tS => exact asResult_runUp _ _ _

/-- The outcome of a run is the one of the model without files at the panic, for all parameters: a run
returns exactly if the other returns, with the same files, and ends with the same panic otherwise. -/
theorem C114_outcome (H : Bytes → Bytes) (params : PosPara) (d : Disk) (rng : Nat → UInt8) (shouldUnseal : Bool) :
    (∀ d', sealAndUnsealRun H params d rng shouldUnseal = (d', none) ↔
      sealAndUnseal H params d rng shouldUnseal = .ok d') ∧
    (∀ e, (sealAndUnsealRun H params d rng shouldUnseal).2 = some e ↔
      sealAndUnseal H params d rng shouldUnseal = .error e) := by
  have key : asResult (sealAndUnsealRun H params d rng shouldUnseal) = sealAndUnseal H params d rng shouldUnseal := by
    unfold sealAndUnsealRun sealAndUnseal
    cases d.origin with
    | none => rfl
    | some origin =>
      simp only [openFile, bind_ok]
      have hp := asResult_padRun origin params.dataL params.unitL
      rcases hpr : padRun origin params.dataL params.unitL with ⟨f, _ | e⟩
      · rw [hpr] at hp
        rw [← hp]
        simp only [asResult, bind_ok]
        have hs := asResult_sealRun H params f (prepareParams params.unitPl rng).1 (prepareParams params.unitPl rng).2
        rcases hsr : sealRun H params f (prepareParams params.unitPl rng).1 (prepareParams params.unitPl rng).2 with ⟨g, _ | e⟩
        · rw [hsr] at hs
          cases hst : sealFile H params f (prepareParams params.unitPl rng).1 (prepareParams params.unitPl rng).2 with
          | error e => rw [hst] at hs; cases hs
          | ok st =>
            rw [hst] at hs
            have hg : g = st.file := Except.ok.inj hs
            subst hg
            simp only [bind_ok]
            cases shouldUnseal with
            | false => rfl
            | true =>
              simp only [if_true]
              have hu := asResult_unsealRun H params st.file (prepareParams params.unitPl rng).1 (prepareParams params.unitPl rng).2
              rcases hur : unsealRun H params st.file (prepareParams params.unitPl rng).1 (prepareParams params.unitPl rng).2
                with ⟨g, _ | e⟩
              · rw [hur] at hu
                rw [← hu]
                simp only [asResult, bind_ok]
                have hc := asResult_compressRun g params.dataL params.unitL params.unitPl
                rcases hcr : compressRun g params.dataL params.unitL params.unitPl with ⟨o, _ | e⟩
                · rw [hcr] at hc
                  rw [← hc]
                  rfl
                · rw [hcr] at hc
                  rw [← hc]
                  rfl
              · rw [hur] at hu
                rw [← hu]
                rfl
        · rw [hsr] at hs
          cases hst : sealFile H params f (prepareParams params.unitPl rng).1 (prepareParams params.unitPl rng).2 with
          | error e' =>
            rw [hst] at hs
            have : e = e' := Except.error.inj hs
            subst this
            rfl
          | ok st => rw [hst] at hs; cases hs
      · rw [hpr] at hp
        rw [← hp]
        rfl
  rw [← key]
  rcases sealAndUnsealRun H params d rng shouldUnseal with ⟨d1, _ | e1⟩
  · refine ⟨fun d' => ⟨fun h => ?_, fun h => ?_⟩, fun e => ⟨fun h => ?_, fun h => ?_⟩⟩
    · cases h; rfl
    · cases h; rfl
    · cases h
    · cases h
  · refine ⟨fun d' => ⟨fun h => ?_, fun h => ?_⟩, fun e => ⟨fun h => ?_, fun h => ?_⟩⟩
    · cases h
    · cases h
    · cases h; rfl
    · cases h; rfl

/-- Whatever the parameters and however the run ends: the origin file is never changed.  If it is missing
nothing is changed.  With units of no bytes the run panics with the sealed file emptied and nothing else
changed.  The public data is written only after the whole file has been sealed, so whenever sealing panics
the old public data and the old unsealed file are still there. -/
theorem C114_files (H : Bytes → Bytes) (params : PosPara) (d : Disk) (rng : Nat → UInt8) (shouldUnseal : Bool)
    (d' : Disk) (e : Option Panic) (h : sealAndUnsealRun H params d rng shouldUnseal = (d', e)) :
    d'.origin = d.origin ∧
    (d.origin = none → d' = d ∧ e = some .unwrap) ∧
    (∀ origin, d.origin = some origin → params.unitL = 0 → d' = { d with sealed := some [] } ∧ e = some .zero) ∧
    (∀ origin padded x, d.origin = some origin → copyAndPad origin params.dataL params.unitL = .ok padded →
      sealFile H params padded (prepareKey params.unitPl) ((List.range 128).map rng) = .error x →
      e = some x ∧ d'.pubdata = d.pubdata ∧ d'.unsealed = d.unsealed) ∧
    (∀ origin padded st x, d.origin = some origin → copyAndPad origin params.dataL params.unitL = .ok padded →
      sealFile H params padded (prepareKey params.unitPl) ((List.range 128).map rng) = .ok st →
      unsealFile H params st.file (prepareKey params.unitPl) ((List.range 128).map rng) = .error x → shouldUnseal = true →
      e = some x ∧ d'.unsealed = d.unsealed ∧
      d'.pubdata = some (saveData (d.pubdata.getD []) (prepareKey params.unitPl) ((List.range 128).map rng)) ∧
      ∃ g, d'.sealed = some g ∧
        unsealRun H params st.file (prepareKey params.unitPl) ((List.range 128).map rng) = (g, some x)) := by
  refine ⟨?_, ?_, ?_, ?_, ?_⟩
  · have : d' = (sealAndUnsealRun H params d rng shouldUnseal).1 := by rw [h]
    rw [this]
    unfold sealAndUnsealRun
    split
    · rfl
    · split
      · rfl
      · simp only
        split
        · rfl
        · split
          · split <;> rfl
          · rfl
  · intro ho
    unfold sealAndUnsealRun at h
    rw [ho] at h
    cases h
    exact ⟨rfl, rfl⟩
  · intro origin ho hz
    unfold sealAndUnsealRun at h
    rw [ho] at h
    simp only [openFile, padRun, div!, hz, if_true] at h
    cases h
    exact ⟨by rw [ho], rfl⟩
  · intro origin padded x ho hpad hx
    unfold sealAndUnsealRun at h
    rw [ho] at h
    simp only [openFile] at h
    have hp := asResult_padRun origin params.dataL params.unitL
    rw [hpad] at hp
    rcases hpr : padRun origin params.dataL params.unitL with ⟨f, _ | y⟩
    · rw [hpr] at hp h
      obtain rfl : f = padded := Except.ok.inj hp
      have hs := asResult_sealRun H params f (prepareParams params.unitPl rng).1 (prepareParams params.unitPl rng).2
      rw [show sealFile H params f (prepareParams params.unitPl rng).1 (prepareParams params.unitPl rng).2 = .error x from hx] at hs
      rcases hsr : sealRun H params f (prepareParams params.unitPl rng).1 (prepareParams params.unitPl rng).2 with ⟨g, _ | y⟩
      · rw [hsr] at hs; cases hs
      · rw [hsr] at hs
        simp only [hsr] at h
        obtain rfl : y = x := Except.error.inj hs
        cases h
        exact ⟨rfl, rfl, rfl⟩
    · rw [hpr] at hp; cases hp
  · intro origin padded st x ho hpad hst hx hsu
    unfold sealAndUnsealRun at h
    rw [ho] at h
    simp only [openFile] at h
    have hp := asResult_padRun origin params.dataL params.unitL
    rw [hpad] at hp
    rcases hpr : padRun origin params.dataL params.unitL with ⟨f, _ | y⟩
    · rw [hpr] at hp h
      obtain rfl : f = padded := Except.ok.inj hp
      have hs := asResult_sealRun H params f (prepareKey params.unitPl) ((List.range 128).map rng)
      rw [hst] at hs
      rcases hsr : sealRun H params f (prepareKey params.unitPl) ((List.range 128).map rng) with ⟨g, _ | y⟩
      · rw [hsr] at hs
        obtain rfl : g = st.file := Except.ok.inj hs
        have hu := asResult_unsealRun H params st.file (prepareKey params.unitPl) ((List.range 128).map rng)
        rw [hx] at hu
        rcases hur : unsealRun H params st.file (prepareKey params.unitPl) ((List.range 128).map rng) with ⟨g, _ | y⟩
        · rw [hur] at hu; cases hu
        · rw [hur] at hu
          obtain rfl : y = x := Except.error.inj hu
          simp only [prepareParams, hsr, hsu, if_true, hur] at h
          cases h
          exact ⟨rfl, rfl, rfl, g, rfl, rfl⟩
      · rw [hsr] at hs; cases hs
    · rw [hpr] at hp; cases hp

/-- Blocks are written whole.  With any parameters, a panicking `seal` leaves the file as it was after some
number of complete blocks, the panic being that of the next block; if it panics in building the tables the
file is unchanged.  Likewise for `unseal`, which starts at the last block. -/
theorem C114_prefix (H : Bytes → Bytes) (params : PosPara) (file : Bytes) (key : Int) (iv : Bytes) (f : Bytes) (e : Panic) :
    (sealRun H params file key iv = (f, some e) →
      (sealPrefix H params file key iv 0 = .error e ∧ f = file) ∨
      ∃ m st, m < params.dataL / params.blockL ∧ sealPrefix H params file key iv m = .ok st ∧ f = st.file ∧
        sealPrefix H params file key iv (m + 1) = .error e) ∧
    (unsealRun H params file key iv = (f, some e) →
      (sealPrefix H params file key iv 0 = .error e ∧ f = file) ∨
      ∃ tL tS m, m < params.dataL / params.blockL ∧ idxsLOf params (params.dataL / params.blockL) = .ok tL ∧
        idxsSOf params (params.dataL / params.blockL) = .ok tS ∧
        forUp m (fun i g => unsealBlock H params key iv (params.dataL / params.blockL) tL tS
          (params.dataL / params.blockL - 1 - i) g) file = .ok f ∧
        unsealBlock H params key iv (params.dataL / params.blockL) tL tS (params.dataL / params.blockL - 1 - m) f = .error e) := by
  unfold sealRun unsealRun sealPrefix
  rcases Nat.eq_zero_or_pos params.blockL with hz | hz
  · have : div! params.dataL params.blockL = .error .zero := by unfold div!; rw [if_pos hz]
    rw [this]
    constructor
    · intro h; cases h; exact Or.inl ⟨rfl, rfl⟩
    · intro h; cases h; exact Or.inl ⟨rfl, rfl⟩
  · rw [div!_of_pos hz]
    simp only [bind_ok]
    cases htL : idxsLOf params (params.dataL / params.blockL) with
    | error x =>
      constructor
      · intro h; cases h; exact Or.inl ⟨rfl, rfl⟩
      · intro h; cases h; exact Or.inl ⟨rfl, rfl⟩
    | ok tL =>
      cases htS : idxsSOf params (params.dataL / params.blockL) with
      | error x =>
        constructor
        · intro h; cases h; exact Or.inl ⟨rfl, rfl⟩
        · intro h; cases h; exact Or.inl ⟨rfl, rfl⟩
      | ok tS =>
        simp only [bind_ok, pure_eq_ok]
        constructor
        · intro h
          rcases runUp_cases (params.dataL / params.blockL)
            (fun idx2 s => sealBlock H params key iv (params.dataL / params.blockL) tL tS idx2 s)
            { file := file, ids := List.replicate (params.dataL / params.blockL) [], log := [] }
            with ⟨t, h1, h2⟩ | ⟨m, t, x, hm, h1, h2, -, h4⟩
          · rw [h2] at h; cases h
          · rw [h4] at h
            cases h
            exact Or.inr ⟨m, t, hm, h1, rfl, by rw [forUp_succ, h1, bind_ok, h2]⟩
        · intro h
          have hsub : ∀ i < params.dataL / params.blockL, ∀ g : Bytes, (do
              let a ← sub! (params.dataL / params.blockL) 1
              let idx2 ← sub! a i
              unsealBlock H params key iv (params.dataL / params.blockL) tL tS idx2 g) =
              unsealBlock H params key iv (params.dataL / params.blockL) tL tS (params.dataL / params.blockL - 1 - i) g := by
            intro i hi g
            rw [sub!_of_le (by omega), bind_ok, sub!_of_le (by omega), bind_ok]
          rcases runUp_cases (params.dataL / params.blockL) (fun i file => do
              let a ← sub! (params.dataL / params.blockL) 1
              let idx2 ← sub! a i
              unsealBlock H params key iv (params.dataL / params.blockL) tL tS idx2 file) file
            with ⟨t, h1, h2⟩ | ⟨m, t, x, hm, h1, h2, -, h4⟩
          · rw [h2] at h; cases h
          · rw [h4] at h
            cases h
            rw [hsub m hm] at h2
            refine Or.inr ⟨tL, tS, m, hm, rfl, rfl, ?_, h2⟩
            rw [← h1]
            exact forUp_congr (fun i hi g => (hsub i (by omega) g).symm)

/-- Both functions panic on a file of three blocks of two units in mode 1 and leave it alone. -/
example : sealRun toyHash (toyParams 3 2 2 1 64 2 1) (toyFile 384) P_512 [] = (toyFile 384, some .index) ∧
    unsealRun toyHash (toyParams 3 2 2 1 64 2 1) (toyFile 384) P_512 [] = (toyFile 384, some .index) := by decide +kernel

/-- `copy_and_compress` on any file and with any sizes: it either completes or leaves an empty file.  It
panics exactly if units have no bytes, or if they have more bytes than padded ones and there is at least one. -/
theorem C114_compress (file : Bytes) (dataL unitL unitPl : Nat) :
    (unitL = 0 → compressRun file dataL unitL unitPl = ([], some .zero)) ∧
    (0 < unitL → unitPl < unitL → unitL ≤ dataL → compressRun file dataL unitL unitPl = ([], some .index)) ∧
    (0 < unitL → unitL ≤ unitPl ∨ dataL < unitL → ∃ out, copyAndCompress file dataL unitL unitPl = .ok out ∧
      compressRun file dataL unitL unitPl = (out, none)) := by
  refine ⟨?_, ?_, ?_⟩
  · rintro rfl
    rfl
  · intro h0 hlt hle
    unfold compressRun
    rw [div!_of_pos h0]
    refine runUp_error (m := 0) (Nat.div_pos hle h0) (forUp_zero _ _) ?_
    have : slice! (readFile file (0 * unitPl) unitPl) 0 unitL = .error .index := by
      unfold slice!
      rw [if_neg (by rw [readFile_length]; omega)]
    simp only [this, bind_error]
  · intro h0 hor
    obtain ⟨out, ho⟩ : ∃ out, copyAndCompress file dataL unitL unitPl = .ok out := by
      rcases hor with hle | hlt
      · have := C15_compress_any file (dataL / unitL) unitL unitPl h0 hle
        unfold copyAndCompress at this ⊢
        rw [div!_of_pos h0, bind_ok] at this ⊢
        rw [Nat.mul_div_cancel _ h0] at this
        exact ⟨_, this⟩
      · unfold copyAndCompress
        rw [div!_of_pos h0, bind_ok, Nat.div_eq_of_lt hlt]
        exact ⟨_, forUp_zero _ _⟩
    refine ⟨out, ho, ?_⟩
    have := asResult_compressRun file dataL unitL unitPl
    rw [ho] at this
    rcases hrun : compressRun file dataL unitL unitPl with ⟨f, _ | e⟩
    · rw [hrun] at this
      obtain rfl : f = out := Except.ok.inj this
      rfl
    · rw [hrun] at this; cases this

/-- One case of each kind. -/
example : compressRun [1, 2, 3] 4 0 1 = ([], some .zero) ∧ compressRun [1, 2, 3] 4 2 1 = ([], some .index) ∧
    compressRun [1, 2, 3, 4, 5, 6] 4 2 3 = ([1, 2, 4, 5], none) := by decide +kernel

/-! ### which blocks are written before the panic -/

/-- The modes in which a block can be sealed at all (C78), apart from the number of blocks that
hash-chosen long dependencies can address. -/
def BlockModesOk (params : PosPara) (n c : Nat) : Prop :=
  (params.modeL = 2 → params.cntL ≤ 64) ∧ (params.modeL = 3 → n ≤ 650) ∧
  (params.modeS = 0 → c ≤ 65536 ∨ params.cntS = 0) ∧ (params.modeS ≠ 0 → c ≤ n) ∧
  (params.modeS = 2 → params.cntS = 0) ∧ (params.modeS = 1 → c = n ∨ params.cntS = 0 ∨ (params.cntS = 1 ∧ 2 ≤ c))

theorem sealBlock_large_error {H : Bytes → Bytes} (hH : ∀ x, (H x).length = 32) {params : PosPara} {key : Int}
    {iv : Bytes} {n c : Nat} (hlay : Layout params n c) {idxsL idxsS : List (List Nat)} {k : Nat} {s : SealState}
    (hL : params.modeL = 0) (hn : 65536 < n) (hk : 0 < k) (hkn : k < n) (hids : s.ids.length = n)
    (hcnt : 6 ≤ (if params.cntL = 0 then k / 10 + 1 else params.cntL)) :
    sealBlock H params key iv n idxsL idxsS k s = .error .index := by
  unfold sealBlock
  simp only
  rw [toUnits_plain hlay, bind_ok]
  have : sealDependBlocks H params n idxsL s.file s.ids k = .error .index := by
    unfold sealDependBlocks
    rw [if_pos hL, if_neg (by omega), at!_of_lt (by omega), bind_ok]
    by_cases h0 : params.cntL = 0
    · rw [if_pos h0] at hcnt ⊢
      rw [longModeRandom_large hH hn hk hcnt, bind_error]
    · rw [if_neg h0] at hcnt ⊢
      rw [longModeRandom_large hH hn hk hcnt, bind_error]
  rw [this, bind_error]

/-- `seal` on a padded file, in all modes (except, as in C78, one to five hash-chosen short dependencies in
blocks of more than 65536 units: C117).  A run that panics because of the dependency modes has not touched the
file.  The only panic on the way is that of hash-chosen long dependencies on more than 65536 blocks: with
the default count exactly 50 blocks are sealed by then, with a fixed count exactly one; these blocks are
the ones described under C64, the others are as before. -/
theorem C114_seal (H : Bytes → Bytes) (hH : ∀ x, (H x).length = 32) (params : PosPara)
    (p n c : Nat) (cfg : Config params p n c) (hn : 0 < n) (hr : 0 < params.sealRounds)
    (h0S : params.modeS = 0 → c ≤ 65536 ∨ params.cntS = 0 ∨ 6 ≤ params.cntS)
    (file iv : Bytes) (hlen : n * params.blockPl ≤ file.length) (hu : UnitsBelow params p n c file)
    (S : Sealing) (hd : describes S H params p n c iv) :
    (∀ st, sealFile H params file (p : Int) iv = .ok st → sealRun H params file (p : Int) iv = (st.file, none)) ∧
    (¬ BlockModesOk params n c → ∃ e, sealRun H params file (p : Int) iv = (file, some e)) ∧
    (BlockModesOk params n c → params.modeL = 0 → 65536 < n → params.cntL = 0 ∨ 6 ≤ params.cntL →
      ∃ f, sealRun H params file (p : Int) iv = (f, some .index) ∧ f.length = file.length ∧
        (∀ k < (if params.cntL = 0 then 50 else 1), readFile f (k * params.blockPl) params.blockPl =
          ((S.sealedBlocks (fun k => (List.range c).map
            (fun j => readFile file ((k * c + j) * params.unitPl) params.unitPl))
              (if params.cntL = 0 then 50 else 1)).getD k []).flatten) ∧
        ∀ i, (if params.cntL = 0 then 50 else 1) * params.blockPl ≤ i → f[i]? = file[i]?) := by
  refine ⟨?_, ?_, ?_⟩
  · intro st h
    have := asResult_sealRun H params file (p : Int) iv
    rw [h] at this
    rcases hrun : sealRun H params file (p : Int) iv with ⟨f, _ | e⟩
    · rw [hrun] at this
      obtain rfl : f = st.file := Except.ok.inj this
      rfl
    · rw [hrun] at this; cases this
  · intro hno
    unfold sealRun
    rw [cfg.div]
    simp only [bind_ok]
    cases htL : idxsLOf params n with
    | error e => exact ⟨e, rfl⟩
    | ok tL =>
      cases htS : idxsSOf params n with
      | error e => exact ⟨e, rfl⟩
      | ok tS =>
        simp only [bind_ok, pure_eq_ok]
        cases hb : sealBlock H params (p : Int) iv n tL tS 0 { file := file, ids := List.replicate n [], log := [] } with
        | ok s' => exact absurd (sealBlock_modes hH cfg hn hr h0S htL htS hb) hno
        | error e =>
          rw [runUp_error hn (forUp_zero _ _) hb]
          exact ⟨e, rfl⟩
  · intro hok hL hbig hcnt
    rw [describes_sealingOf hd]
    obtain ⟨-, -, h3, h4, h5, h6⟩ := hok
    obtain ⟨tS, hs, hshort⟩ := shortOf_is hH cfg.c_pos (params := params) (n := n) ⟨h3, h4, h5, h6⟩
    have htL : idxsLOf params n = .ok [] := by unfold idxsLOf; rw [if_neg (by simp [hL])]; rfl
    have hlongOf : longOf H params n = hashLong H n params.cntL := by unfold longOf; rw [if_pos hL]
    set m := (if params.cntL = 0 then 50 else 1) with hm
    have hm1 : 0 < m ∧ m ≤ 50 := by rw [hm]; split <;> omega
    obtain ⟨s, e1, hinv⟩ := sealLoop_exact_upTo hH cfg.keyOk cfg.layout (iv := iv) (long := longOf H params n)
      (idxsL := []) hshort hlen (fun i hi => hu.blockOk cfg.layout hi) (m := m) (by omega) (fun k hk => by
        rw [hlongOf]
        by_cases h0 : params.cntL = 0
        · refine longAt_hash hH hL (Or.inr ?_)
          rw [if_pos h0]
          rw [hm, if_pos h0] at hk
          omega
        · rw [hm, if_neg h0] at hk
          obtain rfl : k = 0 := by omega
          intro id
          refine ⟨fun i hi => ?_, fun f ids _ => ?_⟩
          · unfold hashLong at hi
            rw [if_pos rfl] at hi
            simp at hi
          · unfold sealDependBlocks hashLong
            rw [if_pos hL, if_pos rfl, if_pos rfl, pure_eq_ok, bind_ok])
    have e2 : sealBlock H params (p : Int) iv n [] tS m s = .error .index := by
      refine sealBlock_large_error hH cfg.layout hL hbig hm1.1 (by omega) hinv.ids_len ?_
      by_cases h0 : params.cntL = 0
      · rw [if_pos h0, hm, if_pos h0]
      · rw [if_neg h0]; omega
    refine ⟨s.file, ?_, hinv.len, hinv.blocks, hinv.tail⟩
    unfold sealRun
    rw [cfg.div]
    simp only [bind_ok, htL, hs, pure_eq_ok]
    rw [runUp_error (show m < n by omega) e1 e2]

/-! ### unsealing -/

theorem unsealRoundsLoop_table {H : Bytes → Bytes} (hH : ∀ x, (H x).length = 32) {params : PosPara} {key : Int}
    {iv : Bytes} {S : List (List Nat)} {before : Bytes} {deps : List (List Bytes)} {c k : Nat}
    {s r : List Bytes} (hr : 0 < params.sealRounds) (hc0 : 0 < c)
    (hlen : s.length = c) (h : unsealRoundsLoop H params key iv S before deps c k s = .ok r) :
    (params.modeS ≠ 0 → ∀ i < c, ∃ l, S[i]? = some l ∧ ∀ d ∈ l, d < c) ∧
    (params.modeS = 0 → c ≤ 65536 ∨ params.cntS < 6) := by
  have hunit : ∀ i (s s' : List Bytes),
      unsealUnit H params key iv S before deps c k i s = .ok s' →
      s'.length = s.length ∧ (params.modeS ≠ 0 → ∃ l, S[i]? = some l ∧ ∀ d ∈ l, d < s.length) ∧
      (params.modeS = 0 → c ≤ 65536 ∨ params.cntS < 6) := by
    intro i s s' h
    unfold unsealUnit at h
    simp only [bind_eq_ok] at h
    obtain ⟨dd, hdd, u, -, v, -, hcur⟩ := h
    obtain ⟨-, rfl⟩ := put!_eq_ok.mp hcur
    refine ⟨by simp, ?_, ?_⟩
    · intro hS
      unfold unsealDependData at hdd
      rw [bind_eq_ok] at hdd
      obtain ⟨a, -, hdd⟩ := hdd
      rw [if_pos hS, bind_eq_ok] at hdd
      obtain ⟨l, hl, hdd⟩ := hdd
      exact ⟨l, at!_eq_ok.mp hl, forEach_at_lt hdd⟩
    · intro hS
      by_contra hcon
      unfold unsealDependData at hdd
      rw [bind_eq_ok] at hdd
      obtain ⟨a, -, hdd⟩ := hdd
      rw [if_neg (by simp [hS]), bind_eq_ok] at hdd
      obtain ⟨ans, ha, -⟩ := hdd
      by_cases hi : i = 0
      · rw [if_pos hi, (C22_selection_panics H hH c i params.cntS (by omega) (by omega) []).2] at ha
        cases ha
      · rw [if_neg hi, bind_eq_ok] at ha
        obtain ⟨b, -, ha⟩ := ha
        rw [(C22_selection_panics H hH c i params.cntS (by omega) (by omega) b).2] at ha
        cases ha
  unfold unsealRoundsLoop at h
  obtain ⟨m, hm⟩ : ∃ m, params.sealRounds = m + 1 := ⟨params.sealRounds - 1, by omega⟩
  rw [hm, forUp_succ', bind_eq_ok] at h
  obtain ⟨s1, h1, -⟩ := h
  have hsub : ∀ j < c, ∀ (s : List Bytes), (do
      let a ← sub! c 1
      let idx1 ← sub! a j
      unsealUnit H params key iv S before deps c k idx1 s) =
      unsealUnit H params key iv S before deps c k (c - 1 - j) s := by
    intro j hj s
    rw [sub!_of_le (by omega), bind_ok, sub!_of_le (by omega), bind_ok]
  have hstep : ∀ i < c, ∃ t t', t.length = c ∧ unsealUnit H params key iv S before deps c k i t = .ok t' := by
    intro i hi
    obtain ⟨t, t', ht, hs⟩ := forUp_step (fun s : List Bytes => s.length = c) hlen
      (fun k' hk' s s' hs hs' => by
        rw [hsub k' hk'] at hs'
        rw [(hunit _ s s' hs').1]
        exact hs) h1 (c - 1 - i) (by omega)
    rw [hsub _ (by omega), show c - 1 - (c - 1 - i) = i by omega] at hs
    exact ⟨t, t', ht, hs⟩
  refine ⟨fun hS i hi => ?_, fun hS => ?_⟩
  · obtain ⟨t, t', ht, hs⟩ := hstep i hi
    obtain ⟨l, hl, hd⟩ := (hunit i t t' hs).2.1 hS
    exact ⟨l, hl, by rw [ht] at hd; exact hd⟩
  · obtain ⟨t, t', -, hs⟩ := hstep 0 hc0
    exact (hunit 0 t t' hs).2.2 hS

/-- What the tables and the last block, the first one to be unsealed, say about the modes. -/
theorem unsealBlock_modes {H : Bytes → Bytes} (hH : ∀ x, (H x).length = 32) {params : PosPara}
    {p n c : Nat} (cfg : Config params p n c) (hn : 0 < n) (hr : 0 < params.sealRounds)
    (h0S : params.modeS = 0 → c ≤ 65536 ∨ params.cntS = 0 ∨ 6 ≤ params.cntS) {iv : Bytes} {tL tS : List (List Nat)}
    (htL : idxsLOf params n = .ok tL) (htS : idxsSOf params n = .ok tS) {file out : Bytes}
    (hb : unsealBlock H params (p : Int) iv n tL tS (n - 1) file = .ok out) :
    (params.modeL = 0 → LongCountOk n params.cntL) ∧ BlockModesOk params n c := by
  unfold unsealBlock at hb
  simp only at hb
  rw [toUnits_plain cfg.layout, bind_ok, bind_eq_ok] at hb
  obtain ⟨deps, hdeps, hb⟩ := hb
  rw [bind_eq_ok] at hb
  obtain ⟨r, hrnd, -⟩ := hb
  rw [plainUnits_length] at hrnd
  obtain ⟨k1, k2⟩ := unsealRoundsLoop_table hH hr cfg.c_pos (plainUnits_length ..) hrnd
  refine ⟨fun hL => ?_, tables_modes cfg.c_pos hn htL htS (fun m => ?_) k1⟩
  · by_contra hcon
    have hbig : 65536 < n ∧ (params.cntL = 0 ∨ 6 ≤ params.cntL) := by
      unfold LongCountOk at hcon
      omega
    unfold unsealDependBlocks at hdeps
    rw [if_pos hL, if_neg (by omega), bind_eq_ok] at hdeps
    obtain ⟨cur, hcur, -⟩ := hdeps
    by_cases h0 : params.cntL = 0
    · rw [if_pos h0, longModeRandom_large hH hbig.1 (by omega) (by omega)] at hcur
      cases hcur
    · rw [if_neg h0, longModeRandom_large hH hbig.1 (by omega) (by omega)] at hcur
      cases hcur
  · have := h0S m
    have := k2 m
    omega

/-- `unseal` on any file that is long enough, sealed or not, in all modes but the one of C117: it
completes exactly under the conditions of C78, and if it panics the file has not been touched. -/
theorem C114_unseal (H : Bytes → Bytes) (hH : ∀ x, (H x).length = 32) (params : PosPara)
    (p n c : Nat) (cfg : Config params p n c) (hn : 0 < n) (hr : 0 < params.sealRounds)
    (h0S : params.modeS = 0 → c ≤ 65536 ∨ params.cntS = 0 ∨ 6 ≤ params.cntS)
    (file iv : Bytes) (hlen : n * params.blockPl ≤ file.length) :
    (((params.modeL = 0 → LongCountOk n params.cntL) ∧ BlockModesOk params n c) →
      ∃ out, unsealFile H params file (p : Int) iv = .ok out ∧ unsealRun H params file (p : Int) iv = (out, none)) ∧
    (¬ ((params.modeL = 0 → LongCountOk n params.cntL) ∧ BlockModesOk params n c) →
      ∃ e, unsealFile H params file (p : Int) iv = .error e ∧ unsealRun H params file (p : Int) iv = (file, some e)) := by
  have hres := asResult_unsealRun H params file (p : Int) iv
  constructor
  · rintro ⟨h0, h1, h2, h3, h4, h5, h6⟩
    obtain ⟨out, ho, -⟩ := C79_unseal_exact H hH params p n c cfg ⟨h0, h1, h2⟩ ⟨h3, h4, h5, h6⟩ file iv hlen
      (sealingOf H params p c iv (unsealLongOf H params n) (shortOf H params n c)) ⟨rfl, rfl, rfl, rfl, rfl, rfl, rfl, rfl⟩
    refine ⟨out, ho, ?_⟩
    rw [ho] at hres
    rcases hrun : unsealRun H params file (p : Int) iv with ⟨f, _ | e⟩
    · rw [hrun] at hres
      obtain rfl : f = out := Except.ok.inj hres
      rfl
    · rw [hrun] at hres; cases hres
  · intro hno
    have key : ∃ e, unsealRun H params file (p : Int) iv = (file, some e) := by
      unfold unsealRun
      rw [cfg.div]
      simp only [bind_ok]
      cases htL : idxsLOf params n with
      | error e => exact ⟨e, rfl⟩
      | ok tL =>
        cases htS : idxsSOf params n with
        | error e => exact ⟨e, rfl⟩
        | ok tS =>
          simp only [bind_ok, pure_eq_ok]
          cases hb : unsealBlock H params (p : Int) iv n tL tS (n - 1) file with
          | ok s' => exact absurd (unsealBlock_modes hH cfg hn hr h0S htL htS hb) hno
          | error e =>
            refine ⟨e, runUp_error hn (forUp_zero _ _) ?_⟩
            rw [sub!_of_le (by omega), bind_ok, sub!_of_le (by omega), bind_ok]
            exact hb
    obtain ⟨e, he⟩ := key
    refine ⟨e, ?_, he⟩
    rw [he] at hres
    exact hres.symm

/-! ### the whole command -/

/-- `seal_and_unseal` on a file of the right size.  In modes in which no block can be sealed the run leaves
the padded original, unencoded, as the sealed file.  With hash-chosen long dependencies on more than 65536
blocks it leaves a file of which only the first 50 blocks (with a fixed count: the first block) are sealed.
In both cases the new IV is on no file: the public data is the old one.  In all other cases of C78 the run
completes. -/
theorem C114_workflow (H : Bytes → Bytes) (hH : ∀ x, (H x).length = 32) (params : PosPara)
    (p n c : Nat) (cfg : Config params p n c) (hn : 0 < n) (hr : 0 < params.sealRounds)
    (h0S : params.modeS = 0 → c ≤ 65536 ∨ params.cntS = 0 ∨ 6 ≤ params.cntS)
    (d : Disk) (origin : Bytes) (ho : d.origin = some origin) (hol : origin.length = params.dataL)
    (rng : Nat → UInt8) (u : Bool) (hkey : prepareKey params.unitPl = (p : Int)) :
    ∃ padded, copyAndPad origin params.dataL params.unitL = .ok padded ∧
    (¬ BlockModesOk params n c → ∃ e, sealAndUnsealRun H params d rng u = ({ d with sealed := some padded }, some e)) ∧
    (BlockModesOk params n c → params.modeL = 0 → 65536 < n → params.cntL = 0 ∨ 6 ≤ params.cntL →
      ∃ f, sealAndUnsealRun H params d rng u = ({ d with sealed := some f }, some .index) ∧ f.length = padded.length ∧
        sealRun H params padded (p : Int) ((List.range 128).map rng) = (f, some .index) ∧
        ∀ i, (if params.cntL = 0 then 50 else 1) * params.blockPl ≤ i → f[i]? = padded[i]?) ∧
    (BlockModesOk params n c → (params.modeL = 0 → LongCountOk n params.cntL) →
      ∃ st, sealFile H params padded (p : Int) ((List.range 128).map rng) = .ok st ∧
        (sealAndUnsealRun H params d rng u).2 = none ∧
        (sealAndUnsealRun H params d rng u).1.pubdata =
          some (saveData (d.pubdata.getD []) (p : Int) ((List.range 128).map rng)) ∧
        (u = false → (sealAndUnsealRun H params d rng u).1.sealed = some st.file ∧
          (sealAndUnsealRun H params d rng u).1.unsealed = d.unsealed) ∧
        (u = true → ∃ out o, unsealFile H params st.file (p : Int) ((List.range 128).map rng) = .ok out ∧
          copyAndCompress out params.dataL params.unitL params.unitPl = .ok o ∧
          (sealAndUnsealRun H params d rng u).1.sealed = some out ∧
          (sealAndUnsealRun H params d rng u).1.unsealed = some o)) := by
  obtain ⟨padded, f1, f2, f3, -⟩ := padded_unitsBelow cfg hol
  have hpl : n * params.blockPl ≤ padded.length := by rw [f2]
  have hpr : padRun origin params.dataL params.unitL = (padded, none) := by
    have := asResult_padRun origin params.dataL params.unitL
    rw [f1] at this
    rcases hrun : padRun origin params.dataL params.unitL with ⟨f, _ | e⟩
    · rw [hrun] at this
      obtain rfl : f = padded := Except.ok.inj this
      rfl
    · rw [hrun] at this; cases this
  have hkv : prepareParams params.unitPl rng = ((p : Int), (List.range 128).map rng) := by
    rw [← hkey]; rfl
  obtain ⟨s1, s2, s3⟩ := C114_seal H hH params p n c cfg hn hr h0S padded ((List.range 128).map rng) hpl f3
    (sealingOf H params p c ((List.range 128).map rng) (longOf H params n) (shortOf H params n c))
    ⟨rfl, rfl, rfl, rfl, rfl, rfl, rfl, rfl, rfl⟩
  refine ⟨padded, f1, ?_, ?_, ?_⟩
  · intro hno
    obtain ⟨e, he⟩ := s2 hno
    refine ⟨e, ?_⟩
    unfold sealAndUnsealRun
    simp only [ho, openFile, hpr, hkv, he]
  · intro hok hL hbig hcnt
    obtain ⟨f, hf, hl, -, ht⟩ := s3 hok hL hbig hcnt
    refine ⟨f, ?_, hl, hf, ht⟩
    unfold sealAndUnsealRun
    simp only [ho, openFile, hpr, hkv, hf]
  · intro hok hL
    obtain ⟨g2, g3, g4, g5, g6, g7⟩ := id hok
    obtain ⟨st, hst⟩ := (C78_success H hH params p n c cfg hn hr h0S padded ((List.range 128).map rng) hpl f3).mpr
      ⟨hL, g2, g3, g4, g5, g6, g7⟩
    have hsr := s1 st hst
    have hstl : n * params.blockPl ≤ st.file.length := by
      obtain ⟨st', e1, -, -, e3, -⟩ := C64_seal_exact H hH params p n c cfg ⟨hL, g2, g3⟩ ⟨g4, g5, g6, g7⟩ padded
        ((List.range 128).map rng) hpl f3
        (sealingOf H params p c ((List.range 128).map rng) (longOf H params n) (shortOf H params n c))
        ⟨rfl, rfl, rfl, rfl, rfl, rfl, rfl, rfl, rfl⟩
      rw [hst] at e1
      cases e1
      rw [e3]
      exact hpl
    obtain ⟨out, o1, o2⟩ := (C114_unseal H hH params p n c cfg hn hr h0S st.file ((List.range 128).map rng) hstl).1 ⟨hL, hok⟩
    obtain ⟨o, ho1⟩ : ∃ o, copyAndCompress out params.dataL params.unitL params.unitPl = .ok o := by
      have hdl : params.dataL = n * c * params.unitL := by rw [cfg.data, cfg.block, Nat.mul_assoc]
      rw [hdl]
      exact ⟨_, C15_compress_any out (n * c) params.unitL params.unitPl cfg.unit_pos (by rw [cfg.unit_pl]; omega)⟩
    have hco : compressRun out params.dataL params.unitL params.unitPl = (o, none) := by
      have := asResult_compressRun out params.dataL params.unitL params.unitPl
      rw [ho1] at this
      rcases hrun : compressRun out params.dataL params.unitL params.unitPl with ⟨f, _ | e⟩
      · rw [hrun] at this
        obtain rfl : f = o := Except.ok.inj this
        rfl
      · rw [hrun] at this; cases this
    refine ⟨st, hst, ?_⟩
    unfold sealAndUnsealRun
    cases u with
    | false => simp [ho, openFile, hpr, hkv, hsr]
    | true =>
      simp only [ho, openFile, hpr, hkv, hsr, if_true, o2, hco]
      exact ⟨trivial, trivial, (fun h => by exact absurd h (by decide)), fun _ => ⟨out, o, o1, ho1, rfl, rfl⟩⟩

/-- Mode 1 with two short dependencies: three blocks of two units cannot be sealed, and the run leaves the
padded file unencoded; three blocks of three units can. -/
example (d : Disk) (ho : d.origin = some (zeros 378)) (rng : Nat → UInt8) (u : Bool) :
    ∃ padded e, copyAndPad (zeros 378) 378 63 = .ok padded ∧
      sealAndUnsealRun toyHash (toyParams 3 2 2 1 64 2 1) d rng u = ({ d with sealed := some padded }, some e) := by
  obtain ⟨p, hp, cfg⟩ := toy_config 3 2 2 1 64 2 1 (by norm_num)
  obtain ⟨padded, h1, h2, -⟩ := C114_workflow toyHash (by intro x; rfl) _ p 3 2 cfg (by norm_num) (by decide) (by decide)
    d (zeros 378) ho (by decide +kernel) rng u (by rw [hp]; rfl)
  obtain ⟨e, he⟩ := h2 (by unfold BlockModesOk; decide)
  exact ⟨padded, e, h1, he⟩

example (d : Disk) (ho : d.origin = some (zeros 567)) (rng : Nat → UInt8) (u : Bool) :
    (sealAndUnsealRun toyHash (toyParams 3 3 2 1 64 2 1) d rng u).2 = none := by
  obtain ⟨p, hp, cfg⟩ := toy_config 3 3 2 1 64 2 1 (by norm_num)
  obtain ⟨padded, -, -, -, h4⟩ := C114_workflow toyHash (by intro x; rfl) _ p 3 3 cfg (by norm_num) (by decide) (by decide)
    d (zeros 567) ho (by decide +kernel) rng u (by rw [hp]; rfl)
  obtain ⟨st, -, h, -⟩ := h4 (by unfold BlockModesOk; decide) (by decide)
  exact h

/-- 70000 blocks of one unit with the default counts: the run stops with 50 sealed blocks of 64 bytes. -/
example (d : Disk) (ho : d.origin = some (zeros 4410000)) (rng : Nat → UInt8) (u : Bool) :
    ∃ padded f, copyAndPad (zeros 4410000) 4410000 63 = .ok padded ∧
      sealAndUnsealRun toyHash (toyParams 70000 1 0 0 0 10 1) d rng u = ({ d with sealed := some f }, some .index) ∧
      ∀ i, 3200 ≤ i → f[i]? = padded[i]? := by
  obtain ⟨p, hp, cfg⟩ := toy_config 70000 1 0 0 0 10 1 (by norm_num)
  obtain ⟨padded, h1, -, h3, -⟩ := C114_workflow toyHash (by intro x; rfl) _ p 70000 1 cfg (by norm_num) (by decide)
    (fun _ => Or.inl (by norm_num)) d (zeros 4410000) ho (by unfold zeros; rw [List.length_replicate]; rfl) rng u (by rw [hp]; rfl)
  obtain ⟨f, f1, -, -, f2⟩ := h3 (by unfold BlockModesOk toyParams; norm_num) rfl (by norm_num) (Or.inl rfl)
  exact ⟨padded, f, h1, f1, f2⟩

/-- The two halves of the outcome, and units of no bytes. -/
example : (sealAndUnsealRun toyHash (toyParams 2 1 0 0 0 1 1) ⟨some (toyFile 126), none, none, none⟩
      (fun i => UInt8.ofNat i) true).2 = none ∧
    sealAndUnsealRun toyHash { toyParams 2 1 0 0 0 1 1 with unitL := 0 } ⟨some [1], some [2], some [3], some [4]⟩
      (fun i => UInt8.ofNat i) true = (⟨some [1], some [], some [3], some [4]⟩, some .zero) := by decide +kernel

end PoS
