import Verif.Properties.PanicRun
import Verif.Properties.Decoding
import Verif.Properties.Release
import Verif.Proofs.SealDecide

/-
C117: blocks of more than 65536 units with at most five hash-chosen short dependencies per unit, the
case in which the hash values decide whether a run panics (excluded in C78 and C114).
-/

namespace PoS

theorem shortOf_hash {H : Bytes → Bytes} {params : PosPara} {n c : Nat} (hS : params.modeS = 0) :
    shortOf H params n c = hashShort H c params.cntS := by
  unfold shortOf
  rw [if_pos hS]

theorem idxsSOf_hash {params : PosPara} {n : Nat} (hS : params.modeS = 0) : idxsSOf params n = .ok [] := by
  unfold idxsSOf
  rw [if_neg (by simp [hS])]
  rfl

/-- Only units at the positions 768 to 1533 can lack dependencies. -/
theorem C117_where (H : Bytes → Bytes) (c cnt : Nat) (hc : 65536 < c) (hcnt : cnt ≤ 5) (seed : Bytes) (j : Nat)
    (hj : j < 768 ∨ 1533 < j) : EnoughDrawn H c cnt seed j := by
  unfold EnoughDrawn
  have : (List.range 5).filter (fun i => decide (drawn H seed c i ≠ j)) = List.range 5 := by
    rw [List.filter_eq_self]
    intro i _
    have := drawn_large (H := H) hc seed i
    simp only [decide_eq_true_eq]
    omega
  rw [this, List.length_range]
  exact hcnt

/-- `seal` on a padded file with hash-chosen short dependencies in such blocks.  It succeeds exactly if in
the described run (C64) every unit has enough numbers to draw from; the file is then the described one.
Otherwise it panics at the first block with a unit that has not: the blocks before are sealed as
described, this one and the ones behind it are as before. -/
theorem C117_seal (H : Bytes → Bytes) (hH : ∀ x, (H x).length = 32) (params : PosPara)
    (p n c : Nat) (cfg : Config params p n c) (hL : LongModeOk params n) (hS : params.modeS = 0) (hc : 65536 < c)
    (hcnt : params.cntS ≤ 5) (file iv : Bytes) (hlen : n * params.blockPl ≤ file.length)
    (hu : UnitsBelow params p n c file) (S : Sealing) (hd : describes S H params p n c iv)
    (plain : Nat → List Bytes) (hplain : plain = fun k => (List.range c).map
      (fun j => readFile file ((k * c + j) * params.unitPl) params.unitPl))
    (enough : Nat → Prop) (henough : ∀ k, enough k ↔ ∀ r < params.sealRounds, ∀ j < c,
      EnoughDrawn H c params.cntS (if j = 0 then [] else (S.sealState (S.dependencies (S.sealedBlocks plain k) k)
        (S.chaining (S.sealedBlocks plain k) k) (plain k) r j).getD (j - 1) []) j) :
    ((∃ st, sealFile H params file (p : Int) iv = .ok st) ↔ ∀ k < n, enough k) ∧
    (∀ st, sealFile H params file (p : Int) iv = .ok st →
      (∀ k < n, readFile st.file (k * params.blockPl) params.blockPl = ((S.sealedBlocks plain n).getD k []).flatten) ∧
      st.ids = (List.range n).map (fun k => H (readFile st.file (k * params.blockPl) params.blockPl)) ∧
      st.file.length = file.length ∧ ∀ i, n * params.blockPl ≤ i → st.file[i]? = file[i]?) ∧
    (∀ q < n, (∀ k < q, enough k) → ¬ enough q →
      ∃ f, sealRun H params file (p : Int) iv = (f, some .index) ∧ f.length = file.length ∧
        (∀ k < q, readFile f (k * params.blockPl) params.blockPl = ((S.sealedBlocks plain q).getD k []).flatten) ∧
        ∀ i, q * params.blockPl ≤ i → f[i]? = file[i]?) := by
  have hSd : S = sealingOf H params p c iv (longOf H params n) (hashShort H c params.cntS) := by
    rw [describes_sealingOf hd, shortOf_hash hS]
  obtain ⟨tL, hl, hlong⟩ := longOf_is hH hL
  have hpl : plain = plainUnits params c file := hplain
  have hen : ∀ k, enough k ↔ S.EnoughSealing params.cntS (S.dependencies (S.sealedBlocks (plainUnits params c file) k) k)
      (S.chaining (S.sealedBlocks (plainUnits params c file) k) k) (plainUnits params c file k) := by
    intro k
    rw [henough k, hpl]
    unfold Sealing.EnoughSealing
    rw [show S.rounds = params.sealRounds by rw [hSd]; rfl, show S.c = c by rw [hSd]; rfl, show S.H = H by rw [hSd]; rfl]
  have hSc : S.c = c := by rw [hSd]; rfl
  have hSH : S.H = H := by rw [hSd]; rfl
  have key := sealLoop_few hH cfg.keyOk cfg.layout hS hc hcnt (iv := iv) (idxsL := tL) (idxsS := []) hlen
    (fun i hi => hu.blockOk cfg.layout hi) (Nat.le_refl n) hlong S hSd
  simp only [← hen] at key
  have hfile : sealFile H params file (p : Int) iv = forUp n (fun idx2 s => sealBlock H params (p : Int) iv n tL [] idx2 s)
      { file := file, ids := List.replicate n [], log := [] } := by
    rw [sealFile_eq cfg]
    unfold sealPrefix
    rw [cfg.div, bind_ok, hl, bind_ok, idxsSOf_hash hS, bind_ok]
  have hrun : sealRun H params file (p : Int) iv =
      ((runUp n (fun idx2 s => sealBlock H params (p : Int) iv n tL [] idx2 s)
        { file := file, ids := List.replicate n [], log := [] }).1.file,
       (runUp n (fun idx2 s => sealBlock H params (p : Int) iv n tL [] idx2 s)
        { file := file, ids := List.replicate n [], log := [] }).2) := by
    unfold sealRun
    rw [cfg.div, bind_ok, hl, bind_ok, idxsSOf_hash hS]
    rfl
  rcases key with ⟨hall, st, h1, hinv⟩ | ⟨⟨q, hq, hq1, hq2, t, h1, hinv, h2⟩, herr⟩
  · refine ⟨⟨fun _ => hall, fun _ => ⟨st, by rw [hfile]; exact h1⟩⟩, ?_, fun q hq _ hno => absurd (hall q hq) hno⟩
    intro st' hst'
    rw [hfile, h1] at hst'
    obtain rfl := Except.ok.inj hst'
    have hb := hinv.blocks
    have hi := hinv.ids
    rw [hSc, ← hpl] at hb hi
    rw [hSH] at hi
    refine ⟨hb, ?_, hinv.len, hinv.tail⟩
    apply List.ext_getElem?
    intro k
    rcases Nat.lt_or_ge k n with h | h
    · rw [hi k h, List.getElem?_map, List.getElem?_range h]
      have := hb k h
      unfold blockOf at this
      rw [Option.map_some, this]
    · rw [List.getElem?_eq_none (by rw [hinv.ids_len]; exact h), List.getElem?_eq_none (by simpa using h)]
  · refine ⟨⟨fun ⟨st, hst⟩ => ?_, fun h => absurd (h q hq) hq2⟩, fun st hst => ?_, fun q' hq' h1' h2' => ?_⟩
    · rw [hfile, herr] at hst; cases hst
    · rw [hfile, herr] at hst; cases hst
    · obtain rfl : q' = q := by
        rcases Nat.lt_trichotomy q' q with h | h | h
        · exact absurd (hq1 q' h) h2'
        · exact h
        · exact absurd (h1' q h) hq2
      rw [hrun, runUp_error hq h1 h2]
      have hb := hinv.blocks
      rw [hSc, ← hpl] at hb
      exact ⟨t.file, rfl, hinv.len, hb, hinv.tail⟩

/-- Together with C78 this decides the success of `seal` in all modes: in this last one the long modes must be
those of C78 and the numbers must suffice. -/
theorem C117_success (H : Bytes → Bytes) (hH : ∀ x, (H x).length = 32) (params : PosPara)
    (p n c : Nat) (cfg : Config params p n c) (hn : 0 < n) (hS : params.modeS = 0) (hc : 65536 < c)
    (hcnt : params.cntS ≤ 5) (file iv : Bytes) (hlen : n * params.blockPl ≤ file.length)
    (hu : UnitsBelow params p n c file) (S : Sealing) (hd : describes S H params p n c iv)
    (plain : Nat → List Bytes) (hplain : plain = fun k => (List.range c).map
      (fun j => readFile file ((k * c + j) * params.unitPl) params.unitPl)) :
    (∃ st, sealFile H params file (p : Int) iv = .ok st) ↔
      ((params.modeL = 0 → n ≤ 65536 ∨ (0 < params.cntL ∧ params.cntL ≤ 5)) ∧
        (params.modeL = 2 → params.cntL ≤ 64) ∧ (params.modeL = 3 → n ≤ 650)) ∧
      ∀ k < n, ∀ r < params.sealRounds, ∀ j < c,
        EnoughDrawn H c params.cntS (if j = 0 then [] else (S.sealState (S.dependencies (S.sealedBlocks plain k) k)
          (S.chaining (S.sealedBlocks plain k) k) (plain k) r j).getD (j - 1) []) j := by
  by_cases hL : LongModeOk params n
  · rw [(C117_seal H hH params p n c cfg hL hS hc hcnt file iv hlen hu S hd plain hplain _ (fun _ => Iff.rfl)).1]
    exact ⟨fun h => ⟨hL, h⟩, fun h => h.2⟩
  · refine ⟨fun ⟨st, h⟩ => absurd ?_ hL, fun h => absurd h.1 hL⟩
    have hnn : params.dataL / params.blockL = n := by
      have := cfg.div
      unfold div! at this
      split at this <;> cases this
      rfl
    have hL0 : params.modeL = 0 → LongCountOk n params.cntL := by
      intro m
      by_contra hcon
      unfold LongCountOk at hcon
      obtain ⟨e, he⟩ := C22_sealing_panics H hH params file (p : Int) iv m (by omega) (by omega)
      rw [h] at he
      cases he
    rw [sealFile_eq cfg] at h
    unfold sealPrefix at h
    rw [cfg.div, bind_ok, bind_eq_ok] at h
    obtain ⟨tL, htL, -⟩ := h
    exact ⟨hL0, longTable_modes hn htL⟩

/-- The same in a release build, where the static long modes never fail: this completes C90. -/
theorem C117_release (H : Bytes → Bytes) (hH : ∀ x, (H x).length = 32) (params : PosPara)
    (p n c : Nat) (cfg : Config params p n c) (hn : 0 < n) (hz : ReleaseSizes params n) (hS : params.modeS = 0) (hc : 65536 < c)
    (hcnt : params.cntS ≤ 5) (file iv : Bytes) (hlen : n * params.blockPl ≤ file.length)
    (hu : UnitsBelow params p n c file) (S : Sealing) (hd : describesR S H params p n c iv)
    (plain : Nat → List Bytes) (hplain : plain = fun k => (List.range c).map
      (fun j => readFile file ((k * c + j) * params.unitPl) params.unitPl)) :
    ((∃ st, sealFileR H params file (p : Int) iv = .ok st) ↔
      (params.modeL = 0 → n ≤ 65536 ∨ (0 < params.cntL ∧ params.cntL ≤ 5)) ∧
      ∀ k < n, ∀ r < params.sealRounds, ∀ j < c,
        EnoughDrawn H c params.cntS (if j = 0 then [] else (S.sealState (S.dependencies (S.sealedBlocks plain k) k)
          (S.chaining (S.sealedBlocks plain k) k) (plain k) r j).getD (j - 1) []) j) ∧
    (∀ st, sealFileR H params file (p : Int) iv = .ok st →
      (∀ k < n, readFile st.file (k * params.blockPl) params.blockPl = ((S.sealedBlocks plain n).getD k []).flatten) ∧
      st.ids = (List.range n).map (fun k => H (readFile st.file (k * params.blockPl) params.blockPl)) ∧
      st.file.length = file.length ∧ ∀ i, n * params.blockPl ≤ i → st.file[i]? = file[i]?) := by
  have hSd : S = sealingOf H params p c iv (longOfR H params n) (hashShort H c params.cntS) := by
    rw [describesR_sealingOf hd]
    unfold shortOfR
    rw [if_pos hS]
  have hts : idxsSOfR params n = .ok [] := by
    unfold idxsSOfR
    rw [if_neg (by simp [hS])]
    rfl
  by_cases h0L : params.modeL = 0 → LongCountOk n params.cntL
  · obtain ⟨tL, hl, hlong⟩ := longOfR_is hH h0L hz
    have hpl : plain = plainUnits params c file := hplain
    have hen : (∀ k < n, ∀ r < params.sealRounds, ∀ j < c,
        EnoughDrawn H c params.cntS (if j = 0 then [] else (S.sealState (S.dependencies (S.sealedBlocks plain k) k)
          (S.chaining (S.sealedBlocks plain k) k) (plain k) r j).getD (j - 1) []) j) ↔
        ∀ k < n, S.EnoughSealing params.cntS (S.dependencies (S.sealedBlocks (plainUnits params c file) k) k)
          (S.chaining (S.sealedBlocks (plainUnits params c file) k) k) (plainUnits params c file k) := by
      rw [hpl]
      unfold Sealing.EnoughSealing
      rw [show S.rounds = params.sealRounds by rw [hSd]; rfl, show S.c = c by rw [hSd]; rfl, show S.H = H by rw [hSd]; rfl]
    have hSc : S.c = c := by rw [hSd]; rfl
    have hSH : S.H = H := by rw [hSd]; rfl
    have key := sealLoop_few hH cfg.keyOk cfg.layout hS hc hcnt (iv := iv) (idxsL := tL) (idxsS := []) hlen
      (fun i hi => hu.blockOk cfg.layout hi) (Nat.le_refl n) hlong S hSd
    have hfile : sealFileR H params file (p : Int) iv = forUp n (fun idx2 s => sealBlock H params (p : Int) iv n tL [] idx2 s)
        { file := file, ids := List.replicate n [], log := [] } := by
      unfold sealFileR
      rw [cfg.div, bind_ok, hl, bind_ok, hts, bind_ok]
    rw [hen]
    rcases key with ⟨hall, st, h1, hinv⟩ | ⟨⟨q, hq, hq1, hq2, t, h1, hinv, h2⟩, herr⟩
    · refine ⟨⟨fun _ => ⟨h0L, hall⟩, fun _ => ⟨st, by rw [hfile]; exact h1⟩⟩, ?_⟩
      intro st' hst'
      rw [hfile, h1] at hst'
      obtain rfl := Except.ok.inj hst'
      have hb := hinv.blocks
      have hi := hinv.ids
      rw [hSc, ← hpl] at hb hi
      rw [hSH] at hi
      refine ⟨hb, ?_, hinv.len, hinv.tail⟩
      apply List.ext_getElem?
      intro k
      rcases Nat.lt_or_ge k n with h | h
      · rw [hi k h, List.getElem?_map, List.getElem?_range h]
        have := hb k h
        unfold blockOf at this
        rw [Option.map_some, this]
      · rw [List.getElem?_eq_none (by rw [hinv.ids_len]; exact h), List.getElem?_eq_none (by simpa using h)]
    · refine ⟨⟨fun ⟨st, hst⟩ => ?_, fun h => absurd (h.2 q hq) hq2⟩, fun st hst => ?_⟩
      · rw [hfile, herr] at hst; cases hst
      · rw [hfile, herr] at hst; cases hst
  · have hbad : ∀ st, sealFileR H params file (p : Int) iv ≠ .ok st := by
      intro st h
      obtain ⟨tL, tS, -, -, h⟩ := sealFileR_eq cfg h
      have hm : params.modeL = 0 := by
        by_contra hm
        exact h0L fun m => absurd m hm
      have hcon : ¬ LongCountOk n params.cntL := fun h => h0L fun _ => h
      unfold LongCountOk at hcon
      obtain ⟨s, s', -, hb⟩ := forUp_step (fun _ => True) trivial (fun _ _ _ _ _ _ => trivial) h 50 (by omega)
      refine sealBlock_large hH hm (by omega) (by decide) ?_ hb
      split <;> omega
    exact ⟨⟨fun ⟨st, h⟩ => absurd h (hbad st), fun h => absurd h.1 h0L⟩, fun st h => absurd h (hbad st)⟩

/-- The verifier's decoding does not depend on the profile in such blocks (C90). -/
theorem C117_release_decode (H : Bytes → Bytes) (params : PosPara) (hS : params.modeS = 0) (iv : Bytes) (key : Int)
    (idxs : List Nat) (blocks : List (List Bytes)) (befores : List Bytes) (deps : List (List (List Bytes))) :
    batchUnsealR H params idxs blocks befores deps key iv = batchUnseal H params idxs blocks befores deps key iv :=
  (C90_hash_modes H params [] iv key).2.2 hS idxs blocks befores deps

/-- `unseal` on any file that is long enough.  It succeeds exactly if in the described run (C79) every unit
has enough numbers to draw from; the file is then the described one.  Otherwise it panics at the last block
with a unit that has not: the blocks behind it are unsealed as described, this one and the ones before it
are as before. -/
theorem C117_unseal (H : Bytes → Bytes) (hH : ∀ x, (H x).length = 32) (params : PosPara)
    (p n c : Nat) (cfg : Config params p n c) (hL : LongModeOk params n) (hS : params.modeS = 0) (hc : 65536 < c)
    (hcnt : params.cntS ≤ 5) (file iv : Bytes) (hlen : n * params.blockPl ≤ file.length)
    (S : Sealing) (hd : describesUnseal S H params p n c iv)
    (blocks : Nat → List Bytes) (hblocks : blocks = fun k => (List.range c).map
      (fun j => readFile file ((k * c + j) * params.unitPl) params.unitPl))
    (enough : Nat → Prop) (henough : ∀ k, enough k ↔ ∀ r < params.sealRounds, ∀ j < c,
      EnoughDrawn H c params.cntS (if j = 0 then [] else (S.unsealState ((undelay p)^[params.vdeRounds])
        ((S.long (H (blocks (k - 1)).flatten) k).map blocks)
        (if k = 0 then iv else H (blocks (k - 1)).flatten) (blocks k) r (c - 1 - j)).getD (j - 1) []) j) :
    ((∃ out, unsealFile H params file (p : Int) iv = .ok out) ↔ ∀ k < n, enough k) ∧
    (∀ out, unsealFile H params file (p : Int) iv = .ok out →
      (∀ k < n, readFile out (k * params.blockPl) params.blockPl =
        (S.unsealedBlock ((undelay p)^[params.vdeRounds]) blocks k).flatten) ∧
      out.length = file.length ∧ ∀ i, n * params.blockPl ≤ i → out[i]? = file[i]?) ∧
    (∀ q < n, (∀ k < n, q < k → enough k) → ¬ enough q →
      ∃ f, unsealRun H params file (p : Int) iv = (f, some .index) ∧ f.length = file.length ∧
        (∀ k < n, q < k → readFile f (k * params.blockPl) params.blockPl =
          (S.unsealedBlock ((undelay p)^[params.vdeRounds]) blocks k).flatten) ∧
        ∀ i, i < (q + 1) * params.blockPl ∨ n * params.blockPl ≤ i → f[i]? = file[i]?) := by
  have hpl : blocks = plainUnits params c file := hblocks
  obtain ⟨tL, hl, hlong⟩ := unsealLongOf_is hH cfg.layout hL
  -- the encoder plays no part
  obtain ⟨S', hS', hfun, hstate, hlg⟩ : ∃ S', S' = sealingOf H params p c iv (unsealLongOf H params n) (hashShort H c params.cntS) ∧
      (∀ b k, S.unsealedBlock ((undelay p)^[params.vdeRounds]) b k = S'.unsealedBlock ((undelay p)^[params.vdeRounds]) b k) ∧
      (∀ deps chain b r i, S.unsealState ((undelay p)^[params.vdeRounds]) deps chain b r i =
        S'.unsealState ((undelay p)^[params.vdeRounds]) deps chain b r i) ∧ S.long = S'.long := by
    refine ⟨_, rfl, ?_⟩
    obtain ⟨g1, g2, g3, g4, g5, g6, g7, g8⟩ := hd
    rw [shortOf_hash hS] at g8
    obtain ⟨_, _, _, _, _, _, _, _, _⟩ := S
    simp only at g1 g2 g3 g4 g5 g6 g7 g8
    subst g1; subst g2; subst g3; subst g4; subst g5; subst g6; subst g7; subst g8
    exact ⟨fun _ _ => rfl, fun _ _ _ _ _ => rfl, rfl⟩
  have hSc : S'.c = c := by rw [hS']; rfl
  have hSH : S'.H = H := by rw [hS']; rfl
  have hSr : S'.rounds = params.sealRounds := by rw [hS']; rfl
  have hen : ∀ k, enough k ↔ S'.EnoughUnsealing params.cntS ((undelay p)^[params.vdeRounds])
      ((S'.long (H (plainUnits params c file (k - 1)).flatten) k).map (plainUnits params c file))
      (if k = 0 then iv else H (plainUnits params c file (k - 1)).flatten) (plainUnits params c file k) := by
    intro k
    rw [henough k, hpl]
    unfold Sealing.EnoughUnsealing
    simp only [hstate, hlg, hSc, hSH, hSr]
  simp only [hfun, hpl]
  obtain ⟨m, hm, out, h1, ⟨b1, b2, b3, b4⟩, h3, h4⟩ := unsealLoop_cases cfg.layout hlong hlen (P := enough) (e := .index)
    (iv := iv) (short := hashShort H c params.cntS) (p := p) (idxsS := []) (by
      intro k hkn f hf
      refine unsealBlock_cases hH cfg.keyOk cfg.layout hlong hkn f ?_
      rintro deps chain bid hdeps hchain hchain'
      have e : deps = (S'.long (H (plainUnits params c file (k - 1)).flatten) k).map (plainUnits params c file) := by
        rw [hdeps, hf (k - 1) (by omega), ← hS']
        refine List.map_congr_left fun j hj => hf j ?_
        rw [hS'] at hj
        exact ((hlong k hkn _).1 j hj).le
      rw [hf (k - 1) (by omega)] at hchain
      rw [hf k (Nat.le_refl k), hen k, ← e, ← hchain, ← hS']
      refine unsealRoundsLoop_few hH cfg.keyOk hS hc hcnt hchain' ?_ (plainUnits_length ..) (plainUnits_unit _ _ _ _) S' hS'
      intro d hd
      rw [e] at hd
      obtain ⟨i, -, rfl⟩ := List.mem_map.mp hd
      exact plainUnits_length ..)
  rw [← hS'] at b1
  have hfile : unsealFile H params file (p : Int) iv = forUp n (fun i f => do
        let a ← sub! n 1
        let idx2 ← sub! a i
        unsealBlock H params (p : Int) iv n tL [] idx2 f) file := by
    rw [unsealFile_eq cfg]
    unfold unsealFrom
    rw [cfg.div, bind_ok, hl, bind_ok, idxsSOf_hash hS, bind_ok]
  have hrun : unsealRun H params file (p : Int) iv = runUp n (fun i f => do
        let a ← sub! n 1
        let idx2 ← sub! a i
        unsealBlock H params (p : Int) iv n tL [] idx2 f) file := by
    unfold unsealRun
    rw [cfg.div, bind_ok, hl, bind_ok, idxsSOf_hash hS]
    rfl
  rcases Nat.lt_or_ge m n with hmn | hmn
  · obtain ⟨hno, herr⟩ := h4 hmn
    have hstop := runUp_error (n := n) hmn h1 (e := Panic.index) (by
      rw [sub!_of_le (by omega), bind_ok, sub!_of_le (by omega), bind_ok]
      exact herr)
    have hbad : ∀ o, unsealFile H params file (p : Int) iv ≠ .ok o := by
      intro o ho
      have := asResult_unsealRun H params file (p : Int) iv
      rw [hrun, hstop, ho] at this
      cases this
    refine ⟨⟨fun ⟨o, ho⟩ => absurd ho (hbad o), fun h => absurd (h _ (by omega)) hno⟩, fun o ho => absurd ho (hbad o), ?_⟩
    intro q hq hq1 hq2
    obtain rfl : q = n - 1 - m := by
      rcases Nat.lt_trichotomy q (n - 1 - m) with h | h | h
      · exact absurd (hq1 _ (by omega) h) hno
      · exact h
      · exact absurd (h3 q hq (by omega)) hq2
    refine ⟨out, by rw [hrun, hstop], b2, fun k hk hk' => b1 k hk (by omega), fun i hi => ?_⟩
    rcases hi with h | h
    · rw [show n - 1 - m + 1 = n - m by omega] at h
      exact b4 i h
    · exact b3 i h
  · obtain rfl : m = n := by omega
    have hall : ∀ k < m, enough k := fun k hk => h3 k hk (by omega)
    refine ⟨⟨fun _ => hall, fun _ => ⟨out, by rw [hfile]; exact h1⟩⟩, ?_, fun q hq _ hno => absurd (hall q hq) hno⟩
    intro o ho
    rw [hfile, h1] at ho
    obtain rfl := Except.ok.inj ho
    exact ⟨fun k hk => b1 k hk (by omega), b2, b3⟩

/-- The verifier's decoding of a well-formed answer, honest or not, in such blocks. -/
theorem C117_decode (H : Bytes → Bytes) (hH : ∀ x, (H x).length = 32) (params : PosPara)
    (p n c : Nat) (cfg : Config params p n c) (hS : params.modeS = 0) (hc : 65536 < c) (hcnt : params.cntS ≤ 5) (iv : Bytes)
    (idxs : List Nat) (blocks : List (List Bytes)) (befores : List Bytes) (deps : List (List (List Bytes)))
    (wf : WellFormed params c idxs blocks befores deps) (S : Sealing)
    (hSd : S = sealingOf H params p c iv (longOf H params n) (shortOf H params c c))
    (enough : Prop) (henough : enough ↔ ∀ i < idxs.length, ∀ r < params.sealRounds, ∀ j < c,
      EnoughDrawn H c params.cntS (if j = 0 then [] else (S.unsealState ((undelay p)^[params.vdeRounds])
        (deps.getD i []) (if idxs.getD i 0 = 0 then iv else befores.getD i []) (blocks.getD i []) r (c - 1 - j)).getD (j - 1) []) j) :
    (enough → batchUnseal H params idxs blocks befores deps (p : Int) iv =
      .ok (decodedBlocks S ((undelay p)^[params.vdeRounds]) iv idxs blocks befores deps)) ∧
    (¬ enough → batchUnseal H params idxs blocks befores deps (p : Int) iv = .error .index) := by
  obtain ⟨w1, w2, w3, w4, w5⟩ := wf
  rw [shortOf_hash hS] at hSd
  have hSc : S.c = c := by rw [hSd]; rfl
  have hSH : S.H = H := by rw [hSd]; rfl
  have hSr : S.rounds = params.sealRounds := by rw [hSd]; rfl
  have hidx : batchIdxsS params = .ok [] := (batchIdxsS_eq cfg).trans (idxsSOf_hash hS)
  have hblock : ∀ i (hi : i < idxs.length) (b : Bytes) (d : List (List Bytes)) (us : List Bytes), befores[i]? = some b →
      deps[i]? = some d → blocks[i]? = some us →
      (S.EnoughUnsealing params.cntS ((undelay p)^[params.vdeRounds]) d (if idxs.getD i 0 = 0 then iv else b) us ∧
        unsealRoundsLoop H params (p : Int) iv [] b d us.length idxs[i] us =
          .ok (S.unsealOne ((undelay p)^[params.vdeRounds]) d (if idxs.getD i 0 = 0 then iv else b) us)) ∨
      (¬ S.EnoughUnsealing params.cntS ((undelay p)^[params.vdeRounds]) d (if idxs.getD i 0 = 0 then iv else b) us ∧
        unsealRoundsLoop H params (p : Int) iv [] b d us.length idxs[i] us = .error .index) := by
    intro i hi b d us hb hd hus
    have hus' := w4 us (List.mem_of_getElem? hus)
    have hg : idxs.getD i 0 = idxs[i] := by
      rw [List.getD_eq_getElem?_getD, List.getElem?_eq_getElem hi]; rfl
    rw [hus'.1, hg]
    rcases unsealRoundsLoop_few hH cfg.keyOk hS hc hcnt (idxsS := []) (iv := iv) (k := idxs[i]) rfl
      (w5 d (List.mem_of_getElem? hd)) hus'.1 hus'.2 S hSd (bid := b) with ⟨e1, e2, -⟩ | ⟨e1, e2⟩
    · exact Or.inl ⟨e1, e2⟩
    · exact Or.inr ⟨e1, e2⟩
  have hen : enough ↔ ∀ i < idxs.length, S.EnoughUnsealing params.cntS ((undelay p)^[params.vdeRounds]) (deps.getD i [])
      (if idxs.getD i 0 = 0 then iv else befores.getD i []) (blocks.getD i []) := by
    rw [henough]
    unfold Sealing.EnoughUnsealing
    simp only [hSc, hSH, hSr]
  rw [hen]
  unfold batchUnseal
  rw [hidx, bind_ok]
  have key := forUp_decide (n := blocks.length) (s := blocks) (e := Panic.index)
    (f := fun i bs => do
      let new ← batchBlock H params (p : Int) iv [] idxs befores deps i bs
      put! bs i new)
    (P := fun i => S.EnoughUnsealing params.cntS ((undelay p)^[params.vdeRounds]) (deps.getD i [])
      (if idxs.getD i 0 = 0 then iv else befores.getD i []) (blocks.getD i []))
    (inv := fun i bs => bs = (decodedBlocks S ((undelay p)^[params.vdeRounds]) iv idxs blocks befores deps).take i ++ blocks.drop i)
    (by simp) (by
      intro i hi bs hbs
      have hi' : i < idxs.length := by omega
      have hdl : (decodedBlocks S ((undelay p)^[params.vdeRounds]) iv idxs blocks befores deps).length = idxs.length := by
        simp [decodedBlocks]
      have hbsi : bs[i]? = some (blocks[i]) := by
        rw [hbs, List.getElem?_append_right (by simp), List.length_take, Nat.min_eq_left (by omega), Nat.sub_self,
          List.getElem?_drop, Nat.add_zero, List.getElem?_eq_getElem hi]
      have hbl : i < bs.length := by
        by_contra hcon
        rw [List.getElem?_eq_none (by omega)] at hbsi
        cases hbsi
      have g1 : befores.getD i [] = befores[i]'(by omega) := by
        rw [List.getD_eq_getElem?_getD, List.getElem?_eq_getElem (by omega)]; rfl
      have g2 : deps.getD i [] = deps[i]'(by omega) := by
        rw [List.getD_eq_getElem?_getD, List.getElem?_eq_getElem (by omega)]; rfl
      have g3 : blocks.getD i [] = blocks[i] := by
        rw [List.getD_eq_getElem?_getD, List.getElem?_eq_getElem (by omega)]; rfl
      rw [batchBlock_eq (b := befores[i]'(by omega)) (d := deps[i]'(by omega)) (idx2 := idxs[i]'(by omega))
        (List.getElem?_eq_getElem _) (List.getElem?_eq_getElem _) (List.getElem?_eq_getElem _) hbsi]
      rw [g1, g2, g3]
      rcases hblock i hi' _ _ _ (List.getElem?_eq_getElem (by omega)) (List.getElem?_eq_getElem (by omega))
        (List.getElem?_eq_getElem hi) with ⟨e1, e2⟩ | ⟨e1, e2⟩
      · refine Or.inl ⟨e1, _, by rw [e2, bind_ok, put!_of_lt hbl], ?_⟩
        have hdi := decodedBlocks_get (S := S) (dec := (undelay p)^[params.vdeRounds]) (iv := iv) (idxs := idxs)
          (blocks := blocks) (befores := befores) (deps := deps) hi'
        rw [g1, g2, g3] at hdi
        rw [hbs, List.set_append_right _ _ (by simp), List.length_take, Nat.min_eq_left (by omega), Nat.sub_self,
          List.drop_eq_getElem_cons hi, List.set_cons_zero, List.take_add_one, hdi]
        simp
      · exact Or.inr ⟨e1, by rw [e2, bind_error]⟩)
  rw [w1] at key ⊢
  rcases key with ⟨h1, t, h2, h3⟩ | ⟨⟨m, hm, -, hno, -⟩, he⟩
  · refine ⟨fun _ => ?_, fun h => absurd h1 h⟩
    rw [h2, h3, List.drop_of_length_le (by omega), List.append_nil, List.take_of_length_le (by simp [decodedBlocks])]
  · exact ⟨fun h => absurd (h m hm) hno, fun _ => he⟩

/-- The parallel decoding of such an answer: a block in which a unit lacks numbers comes back as it was submitted,
the others are decoded; for every complete schedule. -/
theorem C117_parallel (H : Bytes → Bytes) (hH : ∀ x, (H x).length = 32) (params : PosPara)
    (p n c : Nat) (cfg : Config params p n c) (hS : params.modeS = 0) (hc : 65536 < c) (hcnt : params.cntS ≤ 5) (iv : Bytes)
    (idxs : List Nat) (blocks : List (List Bytes)) (befores : List Bytes) (deps : List (List (List Bytes)))
    (wf : WellFormed params c idxs blocks befores deps) (S : Sealing)
    (hSd : S = sealingOf H params p c iv (longOf H params n) (shortOf H params c c))
    (workers : Nat) (sched : List Nat) (outs : List (List Bytes))
    (h : batchUnsealParallel H params idxs blocks befores deps (p : Int) iv workers sched = .ok (some outs))
    (i : Nat) (hi : i < idxs.length) (enough : Prop) (henough : enough ↔ ∀ r < params.sealRounds, ∀ j < c,
      EnoughDrawn H c params.cntS (if j = 0 then [] else (S.unsealState ((undelay p)^[params.vdeRounds])
        (deps.getD i []) (if idxs.getD i 0 = 0 then iv else befores.getD i []) (blocks.getD i []) r (c - 1 - j)).getD (j - 1) []) j) :
    (enough → outs[i]? = (decodedBlocks S ((undelay p)^[params.vdeRounds]) iv idxs blocks befores deps)[i]?) ∧
    (¬ enough → outs[i]? = blocks[i]?) := by
  obtain ⟨w1, w2, w3, w4, w5⟩ := wf
  rw [shortOf_hash hS] at hSd
  have hSc : S.c = c := by rw [hSd]; rfl
  have hSH : S.H = H := by rw [hSd]; rfl
  have hSr : S.rounds = params.sealRounds := by rw [hSd]; rfl
  have hidx : parIdxsS params = .ok [] := by
    unfold parIdxsS
    rw [if_neg (by simp [hS])]
    rfl
  have hen : enough ↔ S.EnoughUnsealing params.cntS ((undelay p)^[params.vdeRounds]) (deps.getD i [])
      (if idxs.getD i 0 = 0 then iv else befores.getD i []) (blocks.getD i []) := by
    rw [henough]
    unfold Sealing.EnoughUnsealing
    simp only [hSc, hSH, hSr]
  have g0 : idxs.getD i 0 = idxs[i] := by
    rw [List.getD_eq_getElem?_getD, List.getElem?_eq_getElem hi]; rfl
  have g1 : befores.getD i [] = befores[i]'(by omega) := by
    rw [List.getD_eq_getElem?_getD, List.getElem?_eq_getElem (by omega)]; rfl
  have g2 : deps.getD i [] = deps[i]'(by omega) := by
    rw [List.getD_eq_getElem?_getD, List.getElem?_eq_getElem (by omega)]; rfl
  have g3 : blocks.getD i [] = blocks[i]'(by omega) := by
    rw [List.getD_eq_getElem?_getD, List.getElem?_eq_getElem (by omega)]; rfl
  have hdi := decodedBlocks_get (S := S) (dec := (undelay p)^[params.vdeRounds]) (iv := iv) (idxs := idxs)
    (blocks := blocks) (befores := befores) (deps := deps) hi
  have hus := w4 (blocks[i]'(by omega)) (List.getElem_mem _)
  have hbb := batchBlock_eq (H := H) (params := params) (key := (p : Int)) (iv := iv) (idxsS := [])
    (b := befores[i]'(by omega)) (d := deps[i]'(by omega)) (idx2 := idxs[i]'(by omega)) (us := blocks[i]'(by omega))
    (List.getElem?_eq_getElem (by omega)) (List.getElem?_eq_getElem (by omega)) (List.getElem?_eq_getElem (by omega))
    (List.getElem?_eq_getElem (l := blocks) (i := i) (by omega))
  rw [hus.1] at hbb
  rw [hdi, hen, g0, g1, g2, g3]
  rcases unsealRoundsLoop_few hH cfg.keyOk hS hc hcnt (idxsS := []) (iv := iv) (k := idxs[i]) rfl
    (w5 (deps[i]'(by omega)) (List.getElem_mem _)) hus.1 hus.2 S hSd (bid := befores[i]'(by omega)) with ⟨e1, e2, -⟩ | ⟨e1, e2⟩
  · refine ⟨fun _ => ?_, fun hno => absurd e1 hno⟩
    exact (C06_other_blocks H params idxs blocks befores deps (p : Int) iv workers sched outs [] hidx h i (by omega) _
      (hbb.trans e2)).2
  · refine ⟨fun hyes => absurd hyes e1, fun _ => ?_⟩
    exact C06_panicking_task_returns_input H params idxs blocks befores deps (p : Int) iv workers sched outs [] hidx h i
      (by omega) _ (hbb.trans e2)

/-- `seal_and_unseal` on such blocks, on a file of the right size: where `seal` panics the run ends, with the
partly sealed file as the sealed file, and neither the public data nor the unsealed file are touched. -/
theorem C117_workflow (H : Bytes → Bytes) (hH : ∀ x, (H x).length = 32) (params : PosPara)
    (p n c : Nat) (cfg : Config params p n c) (hL : LongModeOk params n) (hS : params.modeS = 0) (hc : 65536 < c)
    (hcnt : params.cntS ≤ 5) (d : Disk) (origin : Bytes) (ho : d.origin = some origin) (hol : origin.length = params.dataL)
    (rng : Nat → UInt8) (u : Bool) (hkey : prepareKey params.unitPl = (p : Int))
    (S : Sealing) (hd : describes S H params p n c ((List.range 128).map rng)) :
    ∃ padded, copyAndPad origin params.dataL params.unitL = .ok padded ∧
      ∀ plain : Nat → List Bytes, plain = (fun k => (List.range c).map
        (fun j => readFile padded ((k * c + j) * params.unitPl) params.unitPl)) →
      ∀ q < n, ∀ r < params.sealRounds, ∀ j < c,
        (∀ k < q, ∀ r < params.sealRounds, ∀ j < c,
          EnoughDrawn H c params.cntS (if j = 0 then [] else (S.sealState (S.dependencies (S.sealedBlocks plain k) k)
            (S.chaining (S.sealedBlocks plain k) k) (plain k) r j).getD (j - 1) []) j) →
        ¬ EnoughDrawn H c params.cntS (if j = 0 then [] else (S.sealState (S.dependencies (S.sealedBlocks plain q) q)
            (S.chaining (S.sealedBlocks plain q) q) (plain q) r j).getD (j - 1) []) j →
        ∃ f, sealAndUnsealRun H params d rng u = ({ d with sealed := some f }, some .index) ∧ f.length = padded.length ∧
          (∀ k < q, readFile f (k * params.blockPl) params.blockPl = ((S.sealedBlocks plain q).getD k []).flatten) ∧
          ∀ i, q * params.blockPl ≤ i → f[i]? = padded[i]? := by
  obtain ⟨padded, f1, f2, f3, -⟩ := padded_unitsBelow cfg hol
  refine ⟨padded, f1, fun plain hplain q hq r hr j hj h1 h2 => ?_⟩
  have hpr : padRun origin params.dataL params.unitL = (padded, none) := by
    have := asResult_padRun origin params.dataL params.unitL
    rw [f1] at this
    rcases hrun : padRun origin params.dataL params.unitL with ⟨f, _ | e⟩
    · rw [hrun] at this
      obtain rfl : f = padded := Except.ok.inj this
      rfl
    · rw [hrun] at this; cases this
  have hkv : prepareParams params.unitPl rng = ((p : Int), (List.range 128).map rng) := by
    rw [← hkey]; rfl
  obtain ⟨f, e1, e2, e3, e4⟩ := (C117_seal H hH params p n c cfg hL hS hc hcnt padded ((List.range 128).map rng)
    (by rw [f2]) f3 S hd plain hplain _ (fun _ => Iff.rfl)).2.2 q hq h1 (fun h => h2 (h r hr j hj))
  refine ⟨f, ?_, e2, e3, e4⟩
  unfold sealAndUnsealRun
  simp only [ho, openFile, hpr, hkv, e1]

/-- A hash whose five numbers are all different. -/
def spreadHash (_ : Bytes) : Bytes := (List.range 32).map UInt8.ofNat

theorem spread_enough (c : Nat) (hc : 65536 < c) (seed : Bytes) (j : Nat) : EnoughDrawn spreadHash c 4 seed j := by
  have hs : ∀ i < 16, streamByte spreadHash seed i = i := by
    intro i hi
    have : streamByte spreadHash seed i = streamByte spreadHash [] i := by
      unfold streamByte
      rw [Nat.div_eq_of_lt hi]
      rfl
    rw [this]
    clear this
    revert i
    decide
  have hd : ∀ i < 5, drawn spreadHash seed c i = 771 + 9 * i := by
    intro i hi
    unfold drawn
    rw [if_neg (by omega), if_neg (by omega), hs _ (by omega), hs _ (by omega), hs _ (by omega)]
    omega
  unfold EnoughDrawn
  have : (List.range 5).filter (fun i => decide (drawn spreadHash seed c i ≠ j)) =
      (List.range 5).filter (fun i => decide (771 + 9 * i ≠ j)) := by
    refine List.filter_congr fun i hi => ?_
    rw [hd i (List.mem_range.mp hi)]
  rw [this]
  by_cases h : ∃ i < 5, j = 771 + 9 * i
  · obtain ⟨i, hi, rfl⟩ := h
    interval_cases i <;> decide
  · have : (List.range 5).filter (fun i => decide (771 + 9 * i ≠ j)) = List.range 5 := by
      rw [List.filter_eq_self]
      intro i hi
      simp only [decide_eq_true_eq]
      exact fun hh => h ⟨i, List.mem_range.mp hi, hh.symm⟩
    rw [this]
    decide

/-- With that hash and four dependencies a block of 65537 units can be sealed. -/
example : ∃ f, copyAndPad (zeros 4128831) 4128831 63 = .ok f ∧
    ∃ st, sealFile spreadHash (toyParams 1 65537 0 0 0 4 2) f P_512 [] = .ok st := by
  obtain ⟨p, hp, cfg⟩ := toy_config 1 65537 0 0 0 4 2 (by norm_num)
  obtain ⟨f, f1, f2, f3, -⟩ := padded_unitsBelow cfg (origin := zeros 4128831)
    (by unfold zeros; rw [List.length_replicate]; rfl)
  refine ⟨f, f1, ?_⟩
  rw [← hp]
  refine (C117_seal spreadHash (by intro x; rfl) _ p 1 65537 cfg (by unfold LongModeOk; decide) rfl (by norm_num) (by decide)
    f [] (by rw [f2]) f3 (sealingOf spreadHash (toyParams 1 65537 0 0 0 4 2) p 65537 []
      (longOf spreadHash (toyParams 1 65537 0 0 0 4 2) 1) (shortOf spreadHash (toyParams 1 65537 0 0 0 4 2) 1 65537))
    ⟨rfl, rfl, rfl, rfl, rfl, rfl, rfl, rfl, rfl⟩ _ rfl _ (fun _ => Iff.rfl)).1.mpr ?_
  intro k _ r _ j _
  exact spread_enough _ (by norm_num) _ _

/-- The same block in a release build with a static long mode that panics in a debug build. -/
example : ∃ f, copyAndPad (zeros 4128831) 4128831 63 = .ok f ∧
    ∃ st, sealFileR spreadHash (toyParams 1 65537 2 0 80 4 2) f P_512 [] = .ok st := by
  obtain ⟨p, hp, cfg⟩ := toy_config 1 65537 2 0 80 4 2 (by norm_num)
  obtain ⟨f, f1, f2, f3, -⟩ := padded_unitsBelow cfg (origin := zeros 4128831)
    (by unfold zeros; rw [List.length_replicate]; rfl)
  refine ⟨f, f1, ?_⟩
  rw [← hp]
  refine (C117_release spreadHash (by intro x; rfl) _ p 1 65537 cfg (by norm_num) ⟨by decide, by decide⟩ rfl (by norm_num) (by decide)
    f [] (by rw [f2]) f3 (sealingOf spreadHash (toyParams 1 65537 2 0 80 4 2) p 65537 []
      (longOfR spreadHash (toyParams 1 65537 2 0 80 4 2) 1) (shortOfR spreadHash (toyParams 1 65537 2 0 80 4 2) 1 65537))
    ⟨rfl, rfl, rfl, rfl, rfl, rfl, rfl, rfl, rfl⟩ _ rfl).1.mpr ⟨by decide, ?_⟩
  intro k _ r _ j _
  exact spread_enough _ (by norm_num) _ _

/-- And a file of that size, sealed or not, can be unsealed. -/
example : ∃ out, unsealFile spreadHash (toyParams 1 65537 0 0 0 4 2) (zeros 4194368) P_512 [] = .ok out := by
  obtain ⟨p, hp, cfg⟩ := toy_config 1 65537 0 0 0 4 2 (by norm_num)
  rw [← hp]
  refine (C117_unseal spreadHash (by intro x; rfl) _ p 1 65537 cfg (by unfold LongModeOk; decide) rfl (by norm_num) (by decide)
    _ [] (by unfold zeros; rw [List.length_replicate]; exact Nat.le_of_eq rfl)
    (sealingOf spreadHash (toyParams 1 65537 0 0 0 4 2) p 65537 [] (unsealLongOf spreadHash (toyParams 1 65537 0 0 0 4 2) 1)
      (shortOf spreadHash (toyParams 1 65537 0 0 0 4 2) 1 65537))
    ⟨rfl, rfl, rfl, rfl, rfl, rfl, rfl, rfl⟩ _ rfl _ (fun _ => Iff.rfl)).1.mpr ?_
  intro k _ r _ j _
  exact spread_enough _ (by norm_num) _ _

/-- A well-formed answer for one such block. -/
example : WellFormed (toyParams 1 65537 0 0 0 4 2) 65537 [0] [List.replicate 65537 (zeros 64)] [[]] [[]] :=
  ⟨rfl, rfl, rfl, fun b hb => by
    rw [List.mem_singleton.mp hb]
    refine ⟨List.length_replicate, fun u hu => ?_⟩
    rw [(List.mem_replicate.mp hu).2]
    rfl, fun d hd b hb => by
    rw [List.mem_singleton.mp hd] at hb
    cases hb⟩

/-- For which a complete schedule exists. -/
example : ∃ sched outs, batchUnsealParallel spreadHash (toyParams 1 65537 0 0 0 4 2) [0] [List.replicate 65537 (zeros 64)] [[]] [[]]
    P_512 [] 1 sched = .ok (some outs) := by
  obtain ⟨-, rest, outs, h⟩ := C05_terminates spreadHash (toyParams 1 65537 0 0 0 4 2) [0] [List.replicate 65537 (zeros 64)]
    [[]] [[]] P_512 [] 1 (by norm_num) [] rfl [] _ rfl
  exact ⟨_, outs, h⟩

/-- A hash that is always zero. -/
def zeroHash (_ : Bytes) : Bytes := zeros 32

theorem zero_drawn (c : Nat) (hc : 65536 < c) (seed : Bytes) (i : Nat) (hi : i < 5) : drawn zeroHash seed c i = 768 := by
  have hs : ∀ i < 16, streamByte zeroHash seed i = 0 := by
    intro i hi
    have : streamByte zeroHash seed i = streamByte zeroHash [] i := by
      unfold streamByte
      rw [Nat.div_eq_of_lt hi]
      rfl
    rw [this]
    clear this
    revert i
    decide
  unfold drawn
  rw [if_neg (by omega), if_neg (by omega), hs _ (by omega), hs _ (by omega), hs _ (by omega)]

/-- With a constant hash of zeros and one dependency the same block cannot: the 769th unit only draws its own
position.  The file is left as it was. -/
example : ∃ f, copyAndPad (zeros 4128831) 4128831 63 = .ok f ∧
    sealRun zeroHash (toyParams 1 65537 0 0 0 1 2) f P_512 [] = (f, some .index) := by
  obtain ⟨p, hp, cfg⟩ := toy_config 1 65537 0 0 0 1 2 (by norm_num)
  obtain ⟨f, f1, f2, f3, -⟩ := padded_unitsBelow cfg (origin := zeros 4128831)
    (by unfold zeros; rw [List.length_replicate]; rfl)
  refine ⟨f, f1, ?_⟩
  rw [← hp]
  have := (C117_seal zeroHash (by intro x; rfl) _ p 1 65537 cfg (by unfold LongModeOk; decide) rfl (by norm_num) (by decide)
    f [] (by rw [f2]) f3 (sealingOf zeroHash (toyParams 1 65537 0 0 0 1 2) p 65537 []
      (longOf zeroHash (toyParams 1 65537 0 0 0 1 2) 1) (shortOf zeroHash (toyParams 1 65537 0 0 0 1 2) 1 65537))
    ⟨rfl, rfl, rfl, rfl, rfl, rfl, rfl, rfl, rfl⟩ _ rfl _ (fun _ => Iff.rfl)).2.2 0 (by norm_num)
      (fun k hk => absurd hk (by omega)) (by
        intro h
        have := h 0 (by decide) 768 (by norm_num)
        unfold EnoughDrawn at this
        rw [List.filter_eq_nil_iff.mpr (by
          intro i hi
          rw [zero_drawn _ (by norm_num) _ _ (List.mem_range.mp hi)]
          decide)] at this
        exact absurd this (by decide))
  obtain ⟨g, g1, -, -, g4⟩ := this
  have e : g = f := List.ext_getElem? (fun i => g4 i (by rw [Nat.zero_mul]; exact Nat.zero_le i))
  rw [e] at g1
  exact g1

end PoS
