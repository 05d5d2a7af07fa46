import Verif.Properties.Storage
import Verif.Properties.Bytes
import Verif.Properties.Sealing

/-
C100: files and data lengths that do not fit the block layout.
-/

namespace PoS

set_option linter.unusedSectionVars false

/-- `seal` looks at `data_l` only through the number of whole blocks. -/
theorem sealFile_dataL (H : Bytes → Bytes) (params : PosPara) (n : Nat) (hn : params.dataL / params.blockL = n)
    (hb : 0 < params.blockL) (file : Bytes) (key : Int) (iv : Bytes) :
    sealFile H params file key iv = sealFile H { params with dataL := n * params.blockL } file key iv := by
  unfold sealFile sealPrefix
  rw [div!_of_pos hb, hn]
  have h : div! ({ params with dataL := n * params.blockL } : PosPara).dataL
      ({ params with dataL := n * params.blockL } : PosPara).blockL = .ok n := by
    rw [div!_of_pos hb]
    simp [Nat.mul_div_cancel _ hb]
  rw [h]
  rfl

theorem unsealFile_dataL (H : Bytes → Bytes) (params : PosPara) (n : Nat) (hn : params.dataL / params.blockL = n)
    (hb : 0 < params.blockL) (file : Bytes) (key : Int) (iv : Bytes) :
    unsealFile H params file key iv = unsealFile H { params with dataL := n * params.blockL } file key iv := by
  unfold unsealFile unsealFrom
  rw [div!_of_pos hb, hn]
  have h : div! ({ params with dataL := n * params.blockL } : PosPara).dataL
      ({ params with dataL := n * params.blockL } : PosPara).blockL = .ok n := by
    rw [div!_of_pos hb]
    simp [Nat.mul_div_cancel _ hb]
  rw [h]
  rfl

/-- `copy_and_pad` of any file to any length: the first `data_l / unit_l` units, each followed by a
zero byte; zeros where the file ends early; what does not fill a unit is dropped.  Compressing
returns that much of the file. -/
theorem C100_pad_any (origin : Bytes) (dataL unitL : Nat) (hu : 0 < unitL) :
    ∃ padded, copyAndPad origin dataL unitL = .ok padded ∧
      padded.length = dataL / unitL * (unitL + 1) ∧
      (∀ j < dataL / unitL, readFile padded (j * (unitL + 1)) (unitL + 1) = readFile origin (j * unitL) unitL ++ [0]) ∧
      copyAndCompress padded dataL unitL (unitL + 1) = .ok (readFile origin 0 (dataL / unitL * unitL)) := by
  generalize hm : dataL / unitL = m
  have hlen : (readFile origin 0 (m * unitL)).length = m * unitL := readFile_length _ _ _
  obtain ⟨padded, h1, h2, h3, h4⟩ := C15_pad_compress (readFile origin 0 (m * unitL)) unitL m hu hlen
  have hread : ∀ j < m, readFile (readFile origin 0 (m * unitL)) (j * unitL) unitL = readFile origin (j * unitL) unitL := by
    intro j hj
    apply List.ext_getElem?
    intro i
    have hle : (j + 1) * unitL ≤ m * unitL := Nat.mul_le_mul_right _ hj
    rw [Nat.succ_mul] at hle
    rw [readFile_getElem?, readFile_getElem? origin (j * unitL)]
    by_cases hi : i < unitL
    · rw [if_pos hi, if_pos hi, readFile_getElem?, if_pos (by omega), Nat.zero_add]
      rfl
    · rw [if_neg hi, if_neg hi]
  have hmm : m * unitL / unitL = m := Nat.mul_div_cancel _ hu
  refine ⟨padded, ?_, h2, fun j hj => by rw [h3 j hj, hread j hj], ?_⟩
  · rw [← h1]
    unfold copyAndPad
    rw [div!_of_pos hu, div!_of_pos hu, hm, hmm, bind_ok, bind_ok]
    apply forUp_congr
    intro k hk s
    simp only [hread k hk]
  · have h5 := h4 []
    rw [List.append_nil] at h5
    rw [← h5]
    unfold copyAndCompress
    rw [div!_of_pos hu, div!_of_pos hu, hm, hmm]

/-- Storing and retrieving a file of any length with any `data_l`: sealing succeeds; what comes back
is the file cut off or filled up with zeros to the whole units in `data_l`; the units behind the last
whole block are stored as plaintext. -/
theorem C100_any_length (H : Bytes → Bytes) (hH : ∀ x, (H x).length = 32) (params : PosPara) (p n c : Nat)
    (hn : params.dataL / params.blockL = n) (cfg : Config { params with dataL := n * params.blockL } p n c)
    (hL : params.modeL = 0) (hS : ShortModeOk params n c) (hn6 : LongCountOk n params.cntL) (origin iv : Bytes) :
    ∃ padded st, copyAndPad origin params.dataL params.unitL = .ok padded ∧
      sealFile H params padded (p : Int) iv = .ok st ∧
      st.file.length = params.dataL / params.unitL * params.unitPl ∧
      (∀ j, n * c ≤ j → j < params.dataL / params.unitL →
        readFile st.file (j * params.unitPl) params.unitPl = readFile origin (j * params.unitL) params.unitL ++ [0]) ∧
      ((∀ v ∈ st.log, v ≠ 0) → storeAndRetrieve H params origin (p : Int) iv =
        .ok (readFile origin 0 (params.dataL / params.unitL * params.unitL))) := by
  have hu : 0 < params.unitL := cfg.unit_pos
  have hpl : params.unitPl = params.unitL + 1 := cfg.unit_pl
  have hblk : params.blockL = c * params.unitL := cfg.block
  have hbpl : params.blockPl = c * params.unitPl := cfg.block_pl
  have hb : 0 < params.blockL := by rw [hblk]; exact Nat.mul_pos cfg.c_pos hu
  have hap : 256 ^ params.unitL ≤ p := cfg.above_units
  obtain ⟨padded, h1, h2, h3, h4⟩ := C100_pad_any origin params.dataL params.unitL hu
  have hnc : n * c ≤ params.dataL / params.unitL := by
    rw [Nat.le_div_iff_mul_le hu, Nat.mul_assoc, ← hblk, ← hn]
    exact Nat.div_mul_le_self _ _
  have hlen : n * params.blockPl ≤ padded.length := by
    rw [h2, hbpl, hpl, ← Nat.mul_assoc]
    exact Nat.mul_le_mul_right _ hnc
  have hub : UnitsBelow { params with dataL := n * params.blockL } p n c padded := by
    intro j hj
    have h5 := h3 j (by omega)
    rw [← hpl] at h5
    show leNat (readFile padded (j * params.unitPl) params.unitPl) < p
    rw [h5, show ([0] : Bytes) = zeros 1 from rfl, leNat_append_zeros]
    have := leNat_lt (readFile origin (j * params.unitL) params.unitL)
    rw [readFile_length] at this
    omega
  obtain ⟨st, s1, -, -, s2, -⟩ := C64_seal_exact H hH { params with dataL := n * params.blockL } p n c cfg
    ⟨fun _ => hn6, fun (h : params.modeL = 2) => absurd (hL.symm.trans h) (by decide),
      fun (h : params.modeL = 3) => absurd (hL.symm.trans h) (by decide)⟩ hS padded iv hlen hub
    (sealingOf H params p c iv (longOf H params n) (shortOf H params n c)) ⟨rfl, rfl, rfl, rfl, rfl, rfl, rfl, rfl, rfl⟩
  have s1' := s1
  rw [← sealFile_dataL H params n hn hb] at s1'
  obtain ⟨r1, -⟩ := C08_seal_region H _ p n c cfg padded iv hlen
  obtain ⟨-, r2⟩ := r1 st s1
  refine ⟨padded, st, h1, s1', by rw [s2, h2, hpl], ?_, ?_⟩
  · intro j hj1 hj2
    have h5 := h3 j hj2
    rw [← hpl] at h5
    rw [← h5]
    apply readFile_congr
    intro i hi1 _
    apply r2
    show n * params.blockPl ≤ i
    rw [hbpl, ← Nat.mul_assoc]
    exact le_trans (Nat.mul_le_mul_right _ hj1) hi1
  · intro hz
    obtain ⟨-, -, k3⟩ := C07_crash_point H hH _ p n c cfg padded iv hlen hub n le_rfl st st
      (by rw [← sealFile_eq cfg]; exact s1) s1
    have k4 := k3 hL hz
    rw [← unsealFile_eq cfg, ← unsealFile_dataL H params n hn hb] at k4
    unfold storeAndRetrieve
    rw [h1, bind_ok, s1', bind_ok, k4, bind_ok, hpl]
    exact h4

/-- So the file comes back exactly if its length is the number of bytes in the whole units of
`data_l`. -/
theorem C100_returned_iff (H : Bytes → Bytes) (hH : ∀ x, (H x).length = 32) (params : PosPara) (p n c : Nat)
    (hn : params.dataL / params.blockL = n) (cfg : Config { params with dataL := n * params.blockL } p n c)
    (hL : params.modeL = 0) (hS : ShortModeOk params n c) (hn6 : LongCountOk n params.cntL) (origin iv : Bytes)
    (hz : ∀ padded st, copyAndPad origin params.dataL params.unitL = .ok padded →
      sealFile H params padded (p : Int) iv = .ok st → ∀ v ∈ st.log, v ≠ 0) :
    storeAndRetrieve H params origin (p : Int) iv = .ok origin ↔
      origin.length = params.dataL / params.unitL * params.unitL := by
  obtain ⟨padded, st, h1, h2, -, -, h5⟩ := C100_any_length H hH params p n c hn cfg hL hS hn6 origin iv
  rw [h5 (hz padded st h1 h2)]
  constructor
  · intro h
    injection h with h
    have h' := congrArg List.length h
    rw [readFile_length] at h'
    exact h'.symm
  · intro h
    congr 1
    rw [← h]
    apply List.ext_getElem?
    intro i
    rw [readFile_getElem?, Nat.zero_add]
    by_cases hi : i < origin.length
    · rw [if_pos hi, List.getElem?_eq_getElem hi]; rfl
    · rw [if_neg hi, List.getElem?_eq_none (by omega)]

/-- Layouts that cannot work panic: zero unit or block sizes in the first division, a padded block
that is not a whole number of padded units in the first block, whatever the file and the hash. -/
theorem C100_bad_layout (H : Bytes → Bytes) (params : PosPara) (origin file : Bytes) (key : Int) (iv : Bytes) :
    (params.unitL = 0 → copyAndPad origin params.dataL params.unitL = .error .zero) ∧
    (params.blockL = 0 → sealFile H params file key iv = .error .zero ∧ unsealFile H params file key iv = .error .zero) ∧
    (0 < params.blockL → params.blockL ≤ params.dataL → ¬ (0 < params.unitPl ∧ params.unitPl ∣ params.blockPl) →
      ∃ e, sealFile H params file key iv = .error e) := by
  refine ⟨fun h => ?_, fun h => ?_, fun hb hd h => ?_⟩
  · unfold copyAndPad; rw [h]; rfl
  · constructor
    · unfold sealFile; rw [h]; rfl
    · unfold unsealFile; rw [h]; rfl
  · cases hs : sealFile H params file key iv with
    | error e => exact ⟨e, rfl⟩
    | ok st =>
      exfalso
      unfold sealFile sealPrefix at hs
      rw [div!_of_pos hb, bind_ok, bind_ok] at hs
      obtain ⟨idxsL, -, hs⟩ := bind_eq_ok.1 hs
      obtain ⟨idxsS, -, hs⟩ := bind_eq_ok.1 hs
      obtain ⟨n, hn⟩ : ∃ n, params.dataL / params.blockL = n + 1 :=
        ⟨params.dataL / params.blockL - 1, by have := Nat.div_pos hd hb; omega⟩
      rw [hn, forUp_succ'] at hs
      obtain ⟨s1, h1, -⟩ := bind_eq_ok.1 hs
      unfold sealBlock at h1
      obtain ⟨us, h2, -⟩ := bind_eq_ok.1 h1
      have := (C14_to_units_iff _ _).1 ⟨us, h2⟩
      rw [readFile_length] at this
      exact h this

/-- One block of two units, `data_l` 194: a third unit is stored as plaintext, five bytes are
dropped; the file has 150 bytes. -/
example : ∃ padded st, copyAndPad (toyFile 150) 194 63 = .ok padded ∧
    sealFile toyHash { toyParams 1 2 0 0 0 1 2 with dataL := 194 } padded P_512 [7] = .ok st ∧
    st.file.length = 192 ∧
    readFile st.file 128 64 = readFile (toyFile 150) 126 63 ++ [0] := by
  obtain ⟨p, hp, cfg⟩ := toy_config 1 2 0 0 0 1 2 (by norm_num)
  obtain ⟨padded, st, h1, h2, h3, h4, -⟩ := C100_any_length toyHash toyHash_length
    { toyParams 1 2 0 0 0 1 2 with dataL := 194 } p 1 2 rfl cfg rfl (by unfold ShortModeOk; decide) (Or.inl (by norm_num)) (toyFile 150) [7]
  rw [hp] at h2
  exact ⟨padded, st, h1, h2, h3, h4 2 le_rfl (by decide)⟩

end PoS
