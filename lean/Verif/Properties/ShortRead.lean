import Verif.Proofs.ShortRead
import Verif.Properties.Release

/-
C95: `read_file` ignores how many bytes were read.
-/

namespace PoS

set_option linter.unusedSectionVars false

/-- One read.  Whatever the operating system returns, the call succeeds; the bytes that were not
returned are zeros.  The result is right exactly when every byte that was not returned is a zero. -/
theorem C95_read (got : Nat) (file : Bytes) (off len : Nat) :
    (readFileShort got file off len).length = len ∧
      (∀ i < len, (readFileShort got file off len)[i]? = some (if i < got then file[off + i]?.getD 0 else 0)) ∧
      (readFileShort got file off len = readFile file off len ↔
        ∀ i, got ≤ i → i < len → off + i < file.length → file[off + i]? = some 0) := by
  have hget : ∀ i < len, (readFileShort got file off len)[i]? = some (if i < got then file[off + i]?.getD 0 else 0) := by
    intro i hi
    rw [readFileShort_cut, cut_getElem?, readFile_getElem?, if_pos hi]
    rfl
  have hlen : (readFileShort got file off len).length = len := by
    rw [readFileShort_cut, cut_length, readFile_length]
  refine ⟨hlen, hget, fun h i h1 h2 h3 => ?_, fun h => ?_⟩
  · have := hget i h2
    rw [h, readFile_getElem?, if_pos h2, if_neg (by omega), List.getElem?_eq_getElem h3] at this
    rw [List.getElem?_eq_getElem h3]
    simpa using this
  · apply List.ext_getElem?
    intro i
    by_cases hi : i < len
    · rw [hget i hi, readFile_getElem?, if_pos hi]
      by_cases hg : i < got
      · rw [if_pos hg]
      · rw [if_neg hg]
        by_cases hl : off + i < file.length
        · rw [h i (by omega) hi hl]; rfl
        · rw [List.getElem?_eq_none (by omega)]; rfl
    · rw [List.getElem?_eq_none (by omega), List.getElem?_eq_none (by rw [readFile_length]; omega)]

/-- `copy_and_pad` under any short reads: it succeeds, and every unit is what was returned of it,
zeros, and the padding byte. -/
theorem C95_pad (got : Nat → Nat) (origin : Bytes) (dataL unitL : Nat) (hu : 0 < unitL) :
    copyAndPadShort got origin dataL unitL = .ok ((List.range (dataL / unitL)).flatMap (fun i =>
      (List.range unitL).map (fun t => if t < got i then origin[i * unitL + t]?.getD 0 else 0) ++ [0])) := by
  unfold copyAndPadShort
  rw [div!_of_pos hu, bind_ok]
  have key := forUp_total (n := dataL / unitL) (s := ([] : Bytes)) (f := fun cnt new =>
    let buf := readFileShort (got cnt) origin (cnt * unitL) unitL ++ [0]
    (pure (new ++ buf) : R Bytes)) (fun k new => new = (List.range k).flatMap (fun i =>
      (List.range unitL).map (fun t => if t < got i then origin[i * unitL + t]?.getD 0 else 0) ++ [0])) rfl (by
    rintro k hk s rfl
    refine ⟨_, rfl, ?_⟩
    rw [List.range_succ, List.flatMap_append]
    congr 1
    rw [List.flatMap_cons, List.flatMap_nil, List.append_nil]
    congr 1
    apply List.ext_getElem?
    intro i
    by_cases hi : i < unitL
    · rw [(C95_read _ _ _ _).2.1 i hi, List.getElem?_map, List.getElem?_range hi]; rfl
    · rw [List.getElem?_eq_none (by rw [(C95_read _ _ _ _).1]; omega), List.getElem?_eq_none (by simpa using hi)])
  obtain ⟨t, h1, h2⟩ := key
  rw [h1, h2]

/-- Sealing under any short reads, in all dependency modes that work: it succeeds, and the blocks of
the file are those of the mathematical description in which the bytes that were not returned are
zeros. -/
theorem C95_seal_exact (own : Nat → Nat) (dep : Nat → Nat → Nat) (H : Bytes → Bytes) (hH : ∀ x, (H x).length = 32)
    (params : PosPara) (p n c : Nat) (cfg : Config params p n c) (hL : LongModeOk params n) (hS : ShortModeOk params n c)
    (file iv : Bytes) (hlen : n * params.blockPl ≤ file.length)
    (hu : UnitsBelow params p n c file) (S : Sealing) (hd : describes S H params p n c iv) :
    ∃ st, sealFileShort own dep H params file (p : Int) iv = .ok st ∧
      (∀ k < n, readFile st.file (k * params.blockPl) params.blockPl =
        ((S.cutSealedBlocks own dep (fun k => (List.range c).map
          (fun j => readFile file ((k * c + j) * params.unitPl) params.unitPl)) n).getD k []).flatten) ∧
      st.ids = (List.range n).map (fun k => H (readFile st.file (k * params.blockPl) params.blockPl)) ∧
      st.file.length = file.length ∧ ∀ i, n * params.blockPl ≤ i → st.file[i]? = file[i]? := by
  rw [describes_sealingOf hd]
  obtain ⟨tL, hl, hlong⟩ := longSel hH hL
  obtain ⟨tS, hs, hshort⟩ := shortOf_is hH cfg.c_pos hS
  obtain ⟨st, h1, hinv⟩ := sealLoopShort_exact hH cfg.keyOk cfg.layout (iv := iv) hshort own dep hlong hlen
    (fun i hi => hu.blockOk cfg.layout hi)
  refine ⟨st, ?_, hinv.blocks, ?_, hinv.len, hinv.tail⟩
  · unfold sealFileShort
    rw [cfg.div, bind_ok, hl, bind_ok, hs, bind_ok]
    exact h1
  · apply List.ext_getElem?
    intro k
    rcases Nat.lt_or_ge k n with h | h
    · rw [hinv.ids k h, List.getElem?_map, List.getElem?_range h]
      have := hinv.blocks k h
      unfold blockOf at this
      rw [Option.map_some, this]
      rfl
    · rw [List.getElem?_eq_none (by rw [hinv.ids_len]; exact h), List.getElem?_eq_none (by simpa using h)]

/-- Unsealing any file under any short reads, in all dependency modes that work. -/
theorem C95_unseal_exact (own before : Nat → Nat) (dep : Nat → Nat → Nat) (H : Bytes → Bytes)
    (hH : ∀ x, (H x).length = 32) (params : PosPara)
    (p n c : Nat) (cfg : Config params p n c) (hL : LongModeOk params n) (hS : ShortModeOk params n c)
    (file iv : Bytes) (hlen : n * params.blockPl ≤ file.length)
    (S : Sealing) (hd : describesUnseal S H params p n c iv) :
    ∃ out, unsealFileShort own before dep H params file (p : Int) iv = .ok out ∧
      (∀ k < n, readFile out (k * params.blockPl) params.blockPl =
        (S.cutUnsealedBlock ((undelay p)^[params.vdeRounds]) (own k) (before k) (dep k) (fun k => (List.range c).map
          (fun j => readFile file ((k * c + j) * params.unitPl) params.unitPl)) k).flatten) ∧
      out.length = file.length ∧ ∀ i, n * params.blockPl ≤ i → out[i]? = file[i]? := by
  obtain ⟨tL, hl, hlong⟩ := unsealLongSel hH cfg.layout hL
  obtain ⟨tS, hs, hshort⟩ := shortOf_is hH cfg.c_pos hS
  obtain ⟨out, h1, h2, h3, h4⟩ := unsealLoopShort_exact hH cfg.keyOk cfg.layout (iv := iv) hshort hlong own before dep hlen
  have hfun : ∀ o b d B k, S.cutUnsealedBlock ((undelay p)^[params.vdeRounds]) o b d B k =
      (sealingOf H params p c iv (unsealLongOf H params n) (shortOf H params n c)).cutUnsealedBlock
        ((undelay p)^[params.vdeRounds]) o b d B k := by
    obtain ⟨g1, g2, g3, g4, g5, g6, g7, g8⟩ := hd
    obtain ⟨_, _, _, _, _, _, _, _, _⟩ := S
    simp only at g1 g2 g3 g4 g5 g6 g7 g8
    subst g1; subst g2; subst g3; subst g4; subst g5; subst g6; subst g7; subst g8
    intro o b d B k
    rfl
  refine ⟨out, ?_, fun k hk => ?_, h3, h4⟩
  · unfold unsealFileShort
    rw [cfg.div, bind_ok, hl, bind_ok, hs, bind_ok]
    exact h1
  · rw [hfun]
    exact h2 k hk

theorem cutUnits_eq_of_min {g g' l : Nat} {us : List Bytes} (hl : ∀ u ∈ us, u.length = l)
    (h : min g (us.length * l) = min g' (us.length * l)) : cutUnits g l us = cutUnits g' l us := by
  apply List.ext_getElem
  · simp
  · intro j h1 h2
    have hj : j < us.length := by simpa using h1
    have e : ∀ g, (cutUnits g l us)[j]? = some (cut (g - j * l) us[j]) := by
      intro g; simp [cutUnits, hj]
    have e1 := e g
    have e2 := e g'
    rw [List.getElem?_eq_getElem h1] at e1
    rw [List.getElem?_eq_getElem h2] at e2
    rw [Option.some.inj e1, Option.some.inj e2]
    apply List.ext_getElem?
    intro i
    rw [cut_getElem?, cut_getElem?]
    have hlen := hl _ (List.getElem_mem hj)
    rcases Nat.lt_or_ge i us[j].length with hi | hi
    · have hle : (j + 1) * l ≤ us.length * l := Nat.mul_le_mul_right _ hj
      rw [Nat.add_mul, Nat.one_mul] at hle
      congr 2
      funext x
      have : i < g - j * l ↔ i < g' - j * l := by omega
      simp only [this]
    · rw [List.getElem?_eq_none hi]; rfl

section

variable {H : Bytes → Bytes} (hH : ∀ x, (H x).length = 32) {params : PosPara}
  {p n c : Nat} (cfg : Config params p n c) (hmode : params.modeL = 0) (hn : LongCountOk n params.cntL) (hS : ShortModeOk params n c)
  (own : Nat → Nat) (dep : Nat → Nat → Nat) (own' before' : Nat → Nat) (dep' : Nat → Nat → Nat)

include hH cfg hmode hn hS in
/-- What unsealing makes of block `k`, when the reads of the sealed file for it are complete. -/
theorem unseal_cut_block {file iv : Bytes} (hlen : n * params.blockPl ≤ file.length)
    (hu : UnitsBelow params p n c file) {S : Sealing} (hd : describes S H params p n c iv) :
    ∃ st out, sealFileShort own dep H params file (p : Int) iv = .ok st ∧
      unsealFileShort own' before' dep' H params st.file (p : Int) iv = .ok out ∧
      out.length = file.length ∧ (∀ i, n * params.blockPl ≤ i → out[i]? = file[i]?) ∧
      ∀ k < n, S.Canonical (cutUnits (own k) params.unitPl (plainUnits params c file k)) ∧
        let done := S.cutSealedBlocks own dep (plainUnits params c file) k
        let deps := S.cutDependencies (dep k) done k
        let chain := S.chaining done k
        (params.blockPl ≤ own' k → (k ≠ 0 → params.blockPl ≤ before' k) →
          (∀ m, min (dep k m) params.blockPl = min (dep' k m) params.blockPl) →
          plainUnits params c out k = S.unsealOne ((undelay p)^[params.vdeRounds]) deps chain
            (S.sealOne deps chain (cutUnits (own k) params.unitPl (plainUnits params c file k)))) := by
  have hL : LongModeOk params n := ⟨fun _ => hn, fun h => by omega, fun h => by omega⟩
  have hlo : longOf H params n = hashLong H n params.cntL := by unfold longOf; rw [if_pos hmode]
  have huo : unsealLongOf H params n = hashLong H n params.cntL := by unfold unsealLongOf; rw [if_pos hmode]
  have hupl : 0 < params.unitPl := by rw [cfg.unit_pl]; omega
  obtain ⟨st, g1, g2, -, g3, g4⟩ := C95_seal_exact own dep H hH params p n c cfg hL hS file iv hlen hu S hd
  obtain ⟨out, h1, h2, h3, h4⟩ := C95_unseal_exact own' before' dep' H hH params p n c cfg hL hS st.file iv (by omega) S (by
    obtain ⟨d1, d2, d3, d4, d5, d6, d7, d8, d9⟩ := hd
    exact ⟨d1, d3, d4, d5, d6, d7, by rw [d8, hlo, huo], d9⟩)
  have hpl : params.unitPl = S.unitPl := hd.2.2.2.1.symm
  have hcc : c = S.c := hd.2.2.2.2.1.symm
  have hbl : params.blockPl = c * params.unitPl := cfg.layout.block
  have hcan : ∀ k < n, S.Canonical (cutUnits (own k) params.unitPl (plainUnits params c file k)) := by
    intro k hk
    refine ⟨by rw [cutUnits_length, plainUnits_length]; exact hcc, fun u hu' => ?_⟩
    obtain ⟨v, hv, g', rfl⟩ := mem_cutUnits hu'
    refine ⟨by rw [cut_length, plainUnits_unit _ _ _ _ v hv]; exact hpl, lt_of_le_of_lt (leNat_cut_le _ _) ?_⟩
    unfold plainUnits at hv
    obtain ⟨j, hj, rfl⟩ := List.mem_map.mp hv
    have hj := List.mem_range.mp hj
    rw [hd.2.2.1]
    apply hu
    calc k * c + j < (k + 1) * c := by rw [Nat.add_mul]; omega
      _ ≤ n * c := Nat.mul_le_mul_right _ hk
  have hone : ∀ k < n, (S.cutSealedBlocks own dep (plainUnits params c file) n).getD k [] =
      S.sealOne (S.cutDependencies (dep k) (S.cutSealedBlocks own dep (plainUnits params c file) k) k)
        (S.chaining (S.cutSealedBlocks own dep (plainUnits params c file) k) k)
        (cutUnits (own k) params.unitPl (plainUnits params c file k)) := by
    intro k hk
    rw [cutSealedBlocks_getD own dep S _ (Nat.lt_succ_self k) (by omega : k + 1 ≤ n)]
    show (S.cutSealedBlocks own dep (plainUnits params c file) k ++ [_]).getD k [] = _
    rw [List.getD_eq_getElem?_getD, List.getElem?_append_right (by rw [cutSealedBlocks_length]), cutSealedBlocks_length,
      hpl]
    simp
  have hshape : ∀ k < n, ((S.cutSealedBlocks own dep (plainUnits params c file) n).getD k []).length = c ∧
      ∀ u ∈ (S.cutSealedBlocks own dep (plainUnits params c file) n).getD k [], u.length = params.unitPl := by
    intro k hk
    rw [hone k hk, hcc, hpl]
    rw [hcc, hpl] at hcan
    exact Sealing.sealOne_shape ⟨(hcan k hk).1, fun u hu => ((hcan k hk).2 u hu).1⟩
  have hblk : ∀ k < n, plainUnits params c st.file k = (S.cutSealedBlocks own dep (plainUnits params c file) n).getD k [] :=
    fun k hk => plainUnits_of_flatten cfg.layout hupl (hshape k hk).2 (g2 k hk)
  refine ⟨st, out, g1, h1, by omega, fun i hi => by rw [h4 i hi, g4 i hi], fun k hk => ⟨hcan k hk, ?_⟩⟩
  intro done deps chain ho hb hdd
  have hub : plainUnits params c out k =
      S.cutUnsealedBlock ((undelay p)^[params.vdeRounds]) (own' k) (before' k) (dep' k) (plainUnits params c st.file) k := by
    refine plainUnits_of_flatten cfg.layout hupl (fun u hu' => ?_) (h2 k hk)
    unfold Sealing.cutUnsealedBlock at hu'
    rw [(unsealOne_shape (by rw [cutUnits_length, plainUnits_length]; exact hcc) (fun u hu => by
      obtain ⟨v, hv, g', rfl⟩ := mem_cutUnits hu
      rw [cut_length, plainUnits_unit _ _ _ _ v hv]; exact hpl)).2 u hu', hpl]
  rw [hub]
  have hprev : ∀ i < k, plainUnits params c st.file i = done.getD i [] := by
    intro i hi
    rw [hblk i (by omega), cutSealedBlocks_getD own dep S _ hi (by omega : k ≤ n)]
  unfold Sealing.cutUnsealedBlock
  simp only []
  have hcur : cutUnits (own' k) S.unitPl (plainUnits params c st.file k) =
      S.sealOne deps chain (cutUnits (own k) params.unitPl (plainUnits params c file k)) := by
    rw [cutUnits_full (fun u hu => by rw [plainUnits_unit _ _ _ _ u hu]; exact hpl)
      (by rw [plainUnits_length, ← hpl, ← hbl]; exact ho), hblk k hk, hone k hk]
  rw [hcur]
  have hlong : S.long = hashLong H n params.cntL := by rw [hd.2.2.2.2.2.2.2.1, hlo]
  by_cases hk0 : k = 0
  · subst hk0
    show S.unsealOne _ _ _ _ = S.unsealOne _ (S.cutDependencies (dep 0) done 0) (S.chaining done 0) _
    unfold Sealing.cutDependencies Sealing.dependencies Sealing.chaining
    rw [hlong]
    unfold hashLong
    simp
  · have hid := hprev (k - 1) (by omega)
    have hcutid : cut (before' k) (plainUnits params c st.file (k - 1)).flatten = (done.getD (k - 1) []).flatten := by
      rw [cut_full (by rw [flatten_length_const _ params.unitPl (plainUnits_unit _ _ _ _), plainUnits_length, ← hbl]
                       exact hb hk0), hid]
    have hmem : ∀ i ∈ S.long (S.H (done.getD (k - 1) []).flatten) k, i < k := by
      intro i hi
      rw [hlong] at hi
      unfold hashLong at hi
      rw [if_neg hk0] at hi
      have hi := List.mem_toFinset.mp ((Finset.mem_sort _).mp hi)
      obtain ⟨j, -, rfl⟩ := List.mem_map.mp (List.mem_of_mem_take hi)
      exact Nat.mod_lt _ (by omega)
    have hdep : (((S.long (S.H (cut (before' k) (plainUnits params c st.file (k - 1)).flatten)) k).map
        (plainUnits params c st.file)).mapIdx (fun m b => cutUnits (dep' k m) S.unitPl b)) = deps := by
      rw [hcutid]
      show _ = S.cutDependencies (dep k) done k
      unfold Sealing.cutDependencies Sealing.dependencies
      have e : (S.long (S.H (done.getD (k - 1) []).flatten) k).map (plainUnits params c st.file) =
          (S.long (S.H (done.getD (k - 1) []).flatten) k).map (fun i => done.getD i []) :=
        List.map_congr_left fun i hi => hprev i (hmem i hi)
      rw [← e]
      apply List.ext_getElem
      · simp
      · intro m m1 m2
        rw [List.getElem_mapIdx, List.getElem_mapIdx, List.getElem_map]
        refine cutUnits_eq_of_min (fun u hu => by rw [plainUnits_unit _ _ _ _ u hu]; exact hpl) ?_
        rw [plainUnits_length, ← hpl, ← hbl]
        exact (hdd m).symm
    have hch : chain = S.H (cut (before' k) (plainUnits params c st.file (k - 1)).flatten) := by
      rw [hcutid]
      show S.chaining done k = _
      unfold Sealing.chaining
      rw [if_neg hk0]
    rw [hdep, if_neg hk0, ← hch]

end

/-- The file is sealed under any short reads and unsealed under any short reads.  A block for which
the sealed file was read completely (or its dependencies equally short both times), and in which no
zero was encoded, comes back as it was read when it was sealed: the bytes that were not returned
then are zeros for good, all others are right, whatever happened to the other blocks. -/
theorem C95_retrieve (own own' before' : Nat → Nat) (dep dep' : Nat → Nat → Nat)
    (H : Bytes → Bytes) (hH : ∀ x, (H x).length = 32) (params : PosPara)
    (p n c : Nat) (cfg : Config params p n c) (hmode : params.modeL = 0) (hn : LongCountOk n params.cntL) (hS : ShortModeOk params n c)
    (file iv : Bytes) (hlen : n * params.blockPl ≤ file.length) (hu : UnitsBelow params p n c file)
    (S : Sealing) (hd : describes S H params p n c iv) :
    ∃ st out, sealFileShort own dep H params file (p : Int) iv = .ok st ∧
      unsealFileShort own' before' dep' H params st.file (p : Int) iv = .ok out ∧ out.length = file.length ∧
      (∀ i, n * params.blockPl ≤ i → out[i]? = file[i]?) ∧
      ∀ k < n,
        let plain := fun k => (List.range c).map (fun j => readFile file ((k * c + j) * params.unitPl) params.unitPl)
        let done := S.cutSealedBlocks own dep plain k
        params.blockPl ≤ own' k → (k ≠ 0 → params.blockPl ≤ before' k) →
        (∀ m, min (dep k m) params.blockPl = min (dep' k m) params.blockPl) →
        S.NoZeroEncoded (S.cutDependencies (dep k) done k) (S.chaining done k) (cutUnits (own k) params.unitPl (plain k)) →
        readFile out (k * params.blockPl) params.blockPl =
          cut (own k) (readFile file (k * params.blockPl) params.blockPl) := by
  obtain ⟨st, out, h1, h2, h3, h4, h5⟩ := unseal_cut_block hH cfg hmode hn hS own dep own' before' dep' hlen hu hd
  refine ⟨st, out, h1, h2, h3, h4, fun k hk => ?_⟩
  intro plain done ho hb hdd hz
  obtain ⟨hcan, h⟩ := h5 k hk
  have h := h ho hb hdd
  have inv := inverse_of hH cfg iv (longOf H params n) n
  rw [← describes_sealingOf hd] at inv
  have e := (Sealing.unsealOne_sealOne inv hcan hz).2
  have hfl : blockOf params out k = (cutUnits (own k) params.unitPl (plainUnits params c file k)).flatten := by
    rw [← plainUnits_flatten cfg.layout, h]
    exact congrArg List.flatten e
  have hsh := toUnits_short cfg.layout (own k) file k
  have hb' : readFileShort (own k) file (k * params.blockPl) params.blockPl =
      (cutUnits (own k) params.unitPl (plainUnits params c file k)).flatten := by
    obtain ⟨us, t1, -, -, t4⟩ := toUnits_ok (readFileShort (own k) file (k * params.blockPl) params.blockPl) params.unitPl c
      (by rw [cfg.unit_pl]; omega) (by rw [(C95_read _ _ _ _).1, cfg.layout.block])
    rw [hsh] at t1
    rw [Except.ok.inj t1]
    exact t4.symm
  rw [← readFileShort_cut, hb']
  exact hfl

/-- When every read is complete, nothing is different. -/
theorem C95_complete (H : Bytes → Bytes) (hH : ∀ x, (H x).length = 32) (params : PosPara)
    (p n c : Nat) (cfg : Config params p n c) (hL : LongModeOk params n) (hS : ShortModeOk params n c)
    (file iv : Bytes) (hlen : n * params.blockPl ≤ file.length)
    (own before : Nat → Nat) (dep : Nat → Nat → Nat)
    (ho : ∀ k, params.blockPl ≤ own k) (hb : ∀ k, params.blockPl ≤ before k) (hdep : ∀ k m, params.blockPl ≤ dep k m) :
    (UnitsBelow params p n c file → ∃ st st', sealFileShort own dep H params file (p : Int) iv = .ok st ∧
      sealFile H params file (p : Int) iv = .ok st' ∧ st.file = st'.file ∧ st.ids = st'.ids) ∧
    ∃ out, unsealFileShort own before dep H params file (p : Int) iv = .ok out ∧
      unsealFile H params file (p : Int) iv = .ok out := by
  have hbl : params.blockPl = c * params.unitPl := cfg.layout.block
  have same : ∀ {f g : Bytes}, f.length = g.length →
      (∀ k < n, readFile f (k * params.blockPl) params.blockPl = readFile g (k * params.blockPl) params.blockPl) →
      (∀ i, n * params.blockPl ≤ i → f[i]? = g[i]?) → f = g := by
    intro f g e1 e2 e3
    apply List.ext_getElem?
    intro i
    rcases Nat.lt_or_ge i (n * params.blockPl) with hi | hi
    · have hp : 0 < params.blockPl := by
        rcases Nat.eq_zero_or_pos params.blockPl with h | h
        · rw [h] at hi; omega
        · exact h
      have hq : i / params.blockPl < n := by
        rw [Nat.div_lt_iff_lt_mul hp]; exact hi
      have hr := Nat.mod_lt i hp
      have hi' : i / params.blockPl * params.blockPl + i % params.blockPl = i := Nat.div_add_mod' i _
      have := congrArg (fun l => l[i % params.blockPl]?) (e2 _ hq)
      simp only [readFile_getElem?] at this
      rw [if_pos hr, if_pos hr, hi'] at this
      rcases Nat.lt_or_ge i f.length with hf | hf
      · rw [List.getElem?_eq_getElem hf, List.getElem?_eq_getElem (by omega : i < g.length)] at this ⊢
        simpa using this
      · rw [List.getElem?_eq_none hf, List.getElem?_eq_none (by omega)]
    · exact e3 i hi
  constructor
  · intro hu
    set S := sealingOf H params p c iv (longOf H params n) (shortOf H params n c) with hSd
    have hd : describes S H params p n c iv := ⟨rfl, rfl, rfl, rfl, rfl, rfl, rfl, rfl, rfl⟩
    obtain ⟨st, a1, a2, a3, a4, a5⟩ := C95_seal_exact own dep H hH params p n c cfg hL hS file iv hlen hu S hd
    obtain ⟨st', b1, b2, b3, b4, b5⟩ := C64_seal_exact H hH params p n c cfg hL hS file iv hlen hu S hd
    have hcan : ∀ k < n, (plainUnits params c file k).length = S.c ∧ ∀ u ∈ plainUnits params c file k, u.length = S.unitPl :=
      fun k _ => ⟨plainUnits_length _ _ _ _, plainUnits_unit _ _ _ _⟩
    have hblocks : ∀ k ≤ n, S.cutSealedBlocks own dep (plainUnits params c file) k =
          S.sealedBlocks (plainUnits params c file) k ∧
        ∀ j < k, ((S.sealedBlocks (plainUnits params c file) k).getD j []).length = c ∧
          ∀ u ∈ (S.sealedBlocks (plainUnits params c file) k).getD j [], u.length = params.unitPl := by
      intro k
      induction k with
      | zero => exact fun _ => ⟨rfl, fun j hj => absurd hj (by omega)⟩
      | succ k ih =>
        intro hk
        obtain ⟨ih1, ih2⟩ := ih (by omega)
        have hl : (S.sealedBlocks (plainUnits params c file) k).length = k := sealedBlocks_length _ _ _
        obtain ⟨tL, -, hlong⟩ := longOf_is hH hL
        have hdeps : S.cutDependencies (dep k) (S.sealedBlocks (plainUnits params c file) k) k =
            S.dependencies (S.sealedBlocks (plainUnits params c file) k) k := by
          unfold Sealing.cutDependencies
          apply List.ext_getElem
          · simp
          · intro m m1 m2
            rw [List.getElem_mapIdx]
            have : (S.dependencies (S.sealedBlocks (plainUnits params c file) k) k)[m] ∈
                S.dependencies (S.sealedBlocks (plainUnits params c file) k) k := List.getElem_mem _
            obtain ⟨i, hi, he⟩ := List.mem_map.mp this
            obtain ⟨s1, s2⟩ := ih2 i ((hlong k (by omega) _).1 i hi)
            rw [← he]
            exact cutUnits_full s2 (by rw [s1, show S.unitPl = params.unitPl from rfl, ← hbl]; exact hdep k m)
        constructor
        · show S.cutSealedBlocks own dep (plainUnits params c file) k ++ [_] = S.sealedBlocks (plainUnits params c file) k ++ [_]
          rw [ih1, hdeps, cutUnits_full (hcan k (by omega)).2
            (by rw [plainUnits_length, show S.unitPl = params.unitPl from rfl, ← hbl]; exact ho k)]
        · intro j hj
          rw [show S.sealedBlocks (plainUnits params c file) (k + 1) = S.sealedBlocks (plainUnits params c file) k ++
            [S.sealOne (S.dependencies (S.sealedBlocks (plainUnits params c file) k) k)
              (S.chaining (S.sealedBlocks (plainUnits params c file) k) k) (plainUnits params c file k)] from rfl]
          rcases Nat.lt_or_ge j k with h | h
          · rw [getD_append_lt _ _ _ (by omega)]
            exact ih2 j h
          · have : j = k := by omega
            subst this
            rw [List.getD_eq_getElem?_getD, List.getElem?_append_right (by omega), hl, Nat.sub_self]
            exact Sealing.sealOne_shape (S := S) (hcan j (by omega))
    have hfile : st.file = st'.file := by
      refine same (by omega) (fun k hk => ?_) (fun i hi => by rw [a5 i hi, b5 i hi])
      rw [a2 k hk, b2 k hk]
      exact congrArg (fun l => (List.getD l k []).flatten) (hblocks n (Nat.le_refl n)).1
    exact ⟨st, st', a1, b1, hfile, by rw [a3, b3, hfile]⟩
  · set S := sealingOf H params p c iv (unsealLongOf H params n) (shortOf H params n c) with hSd
    have hd : describesUnseal S H params p n c iv := ⟨rfl, rfl, rfl, rfl, rfl, rfl, rfl, rfl⟩
    obtain ⟨out, a1, a2, a3, a4⟩ := C95_unseal_exact own before dep H hH params p n c cfg hL hS file iv hlen S hd
    obtain ⟨out', b1, b2, b3, b4⟩ := C79_unseal_exact H hH params p n c cfg hL hS file iv hlen S hd
    have : out = out' := by
      refine same (by omega) (fun k hk => ?_) (fun i hi => by rw [a4 i hi, b4 i hi])
      rw [a2 k hk, b2 k hk]
      congr 1
      show S.cutUnsealedBlock _ _ _ _ (plainUnits params c file) k = S.unsealedBlock _ (plainUnits params c file) k
      unfold Sealing.cutUnsealedBlock Sealing.unsealedBlock
      simp only []
      have hfull : ∀ g k, params.blockPl ≤ g → cutUnits g S.unitPl (plainUnits params c file k) = plainUnits params c file k :=
        fun g k hg => cutUnits_full (plainUnits_unit _ _ _ _)
          (by rw [plainUnits_length, show S.unitPl = params.unitPl from rfl, ← hbl]; exact hg)
      rw [hfull _ _ (ho k), cut_full (by
        rw [flatten_length_const _ params.unitPl (plainUnits_unit _ _ _ _), plainUnits_length, ← hbl]; exact hb k)]
      congr 1
      apply List.ext_getElem
      · simp
      · intro m m1 m2
        rw [List.getElem_mapIdx, List.getElem_map]
        exact hfull _ _ (hdep k m)
    exact ⟨out, a1, by rw [this]; exact b1⟩

/-- `batch_verify` under a short read of the origin file: it accepts exactly the blocks whose units
agree with the bytes that were returned, followed by zeros. -/
theorem C95_verify (got : Nat) (origin : Bytes) (k blockL unitL c : Nat) (hu : 0 < unitL) (hb : blockL = c * unitL)
    (blk : List Bytes) :
    batchVerifyShort got origin k blk blockL unitL = .ok () ↔
      ∀ j < c, ∃ u, blk[j]? = some u ∧
        u.take unitL = cut (got - j * unitL) (readFile origin (k * blockL + j * unitL) unitL) := by
  have e : batchVerifyShort got origin k blk blockL unitL =
      batchVerify (origin.take (k * blockL + got)) k blk blockL unitL := by
    unfold batchVerifyShort batchVerify
    rw [readFileShort_take]
  rw [e, batchVerify_iff hu hb]
  refine forall_congr' fun j => forall_congr' fun _ => exists_congr fun u => and_congr_right fun _ => ?_
  rw [readFile_take]

/-- An honest answer, accepted when the origin file is read completely, is rejected under a short
read exactly when a byte that was not returned is not zero. -/
theorem C95_honest_rejected (got : Nat) (origin : Bytes) (k blockL unitL c : Nat) (hu : 0 < unitL) (hb : blockL = c * unitL)
    (blk : List Bytes) (hok : batchVerify origin k blk blockL unitL = .ok ()) :
    batchVerifyShort got origin k blk blockL unitL = .ok () ↔
      ∀ i, got ≤ i → i < blockL → k * blockL + i < origin.length → origin[k * blockL + i]? = some 0 := by
  rw [C95_verify got origin k blockL unitL c hu hb]
  have hok := (batchVerify_iff hu hb blk).mp hok
  constructor
  · intro h i h1 h2 h3
    have hj : i / unitL < c := by rw [Nat.div_lt_iff_lt_mul hu]; omega
    have hi' : i / unitL * unitL + i % unitL = i := Nat.div_add_mod' i _
    have hr := Nat.mod_lt i hu
    obtain ⟨u, u1, u2⟩ := hok _ hj
    obtain ⟨v, v1, v2⟩ := h _ hj
    have : u = v := Option.some.inj (u1.symm.trans v1)
    subst this
    have e := congrArg (fun l => l[i % unitL]?) (u2.symm.trans v2)
    simp only [cut_getElem?, readFile_getElem?, if_pos hr, Option.map_some] at e
    rw [if_neg (by omega), show k * blockL + i / unitL * unitL + i % unitL = k * blockL + i by omega,
      List.getElem?_eq_getElem h3] at e
    rw [List.getElem?_eq_getElem h3]
    simpa using e
  · intro h j hj
    obtain ⟨u, u1, u2⟩ := hok j hj
    refine ⟨u, u1, ?_⟩
    rw [u2]
    apply List.ext_getElem?
    intro i
    rw [cut_getElem?, readFile_getElem?]
    by_cases hi : i < unitL
    · rw [if_pos hi, Option.map_some]
      congr 1
      by_cases hg : i < got - j * unitL
      · rw [if_pos hg]
      · rw [if_neg hg]
        have hle : (j + 1) * unitL ≤ c * unitL := Nat.mul_le_mul_right _ hj
        rw [Nat.add_mul, Nat.one_mul] at hle
        by_cases hl : k * blockL + j * unitL + i < origin.length
        · have := h (j * unitL + i) (by omega) (by omega) (by omega)
          rw [show k * blockL + (j * unitL + i) = k * blockL + j * unitL + i by omega] at this
          rw [this]; rfl
        · rw [List.getElem?_eq_none (by omega)]; rfl
    · rw [if_neg hi]; rfl

/-! ### Concrete runs -/

/-- Meets the hypotheses of `C95_read`: three of five bytes are returned, one of the lost ones is not
zero; and a read whose lost bytes are zeros. -/
example : readFileShort 3 [1, 2, 3, 4, 5, 6] 1 5 = [2, 3, 4, 0, 0] ∧ readFile [1, 2, 3, 4, 5, 6] 1 5 = [2, 3, 4, 5, 6] ∧
    readFileShort 3 [1, 2, 3, 4, 0] 1 5 = readFile [1, 2, 3, 4, 0] 1 5 := by decide +kernel

/-- Meets the hypotheses of `C95_pad`. -/
example : copyAndPadShort (fun i => if i = 1 then 2 else 9) [1, 2, 3, 4, 5, 6, 7, 8, 9] 9 3 =
    .ok [1, 2, 3, 0, 4, 5, 0, 0, 7, 8, 9, 0] := by decide +kernel

/-- Meets the hypotheses of `C95_seal_exact`, `C95_unseal_exact` and `C95_retrieve`: three blocks of
one unit; while block 1 is sealed 10 bytes of it are returned, all other reads are complete.  The
run succeeds; blocks 0 and 2 come back, block 1 comes back with 54 zeros.  Then everything is sealed
properly but block 0 is read short while block 1 is unsealed: blocks 0 and 2 come back, block 1 is
lost. -/
example : (match sealFileShort (fun k => if k = 1 then 10 else 64) (fun _ _ => 64) toyHash (toyParams 3 1 0 0 1 1 2)
        (List.replicate 63 1 ++ [0] ++ (List.replicate 63 5 ++ [0]) ++ (List.replicate 63 2 ++ [0])) P_512 [1, 2, 3],
      sealFile toyHash (toyParams 3 1 0 0 1 1 2)
        (List.replicate 63 1 ++ [0] ++ (List.replicate 63 5 ++ [0]) ++ (List.replicate 63 2 ++ [0])) P_512 [1, 2, 3] with
    | .ok st, .ok st' =>
      (match unsealFileShort (fun _ => 64) (fun _ => 64) (fun _ _ => 64) toyHash (toyParams 3 1 0 0 1 1 2) st.file P_512 [1, 2, 3],
          unsealFileShort (fun _ => 64) (fun k => if k = 1 then 7 else 64) (fun _ _ => 64) toyHash (toyParams 3 1 0 0 1 1 2)
            st'.file P_512 [1, 2, 3] with
      | .ok out, .ok out' => decide (st.log.count 0 = 0
          ∧ out = List.replicate 63 1 ++ [0] ++ (List.replicate 10 5 ++ zeros 54) ++ (List.replicate 63 2 ++ [0])
          ∧ readFile out' 0 64 = List.replicate 63 1 ++ [0] ∧ readFile out' 64 64 ≠ List.replicate 63 5 ++ [0]
          ∧ readFile out' 128 64 = List.replicate 63 2 ++ [0])
      | _, _ => false)
    | _, _ => false) = true := by decide +kernel

/-- The configuration of the runs above. -/
example : ∃ p : Nat, (p : Int) = P_512 ∧ Config (toyParams 3 1 0 0 1 1 2) p 3 1 ∧
    LongModeOk (toyParams 3 1 0 0 1 1 2) 3 ∧ ShortModeOk (toyParams 3 1 0 0 1 1 2) 3 1 := by
  obtain ⟨p, hp, cfg⟩ := toy_config 3 1 0 0 1 1 2 (by norm_num)
  exact ⟨p, hp, cfg, (hashModes_ok (n := 3) (c := 1) rfl rfl (by omega) (by omega)).1,
    (hashModes_ok (n := 3) (c := 1) rfl rfl (by omega) (by omega)).2⟩

/-- Meets the hypotheses of `C95_verify` and `C95_honest_rejected`: an honest answer is accepted when
all is read, rejected when three bytes are, and a wrong one is accepted instead; when the byte that
is lost is a zero nothing changes. -/
example : batchVerify [1, 2, 3, 4] 0 [[1, 2, 0], [3, 4, 0]] 4 2 = .ok () ∧
    batchVerifyShort 3 [1, 2, 3, 4] 0 [[1, 2, 0], [3, 4, 0]] 4 2 ≠ .ok () ∧
    batchVerifyShort 3 [1, 2, 3, 4] 0 [[1, 2, 0], [3, 0, 0]] 4 2 = .ok () ∧
    batchVerifyShort 3 [1, 2, 3, 0] 0 [[1, 2, 0], [3, 0, 0]] 4 2 = .ok () := by decide +kernel

end PoS
