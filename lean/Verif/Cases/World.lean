import Verif.Properties.Storage
import Verif.Properties.Sealing
import Verif.Properties.Retrieval
import Verif.Properties.Postorage

/-
A small concrete world in which the property theorems are applied one by one: three blocks of two
units of 63 bytes, hash-chosen dependencies of both kinds, two sealing rounds, the shipped 512-bit
modulus, the toy hash.  Everything the theorems ask for is proved here once.
-/

namespace PoS.World

/-- The parameters of the world. -/
def wp : PosPara := toyParams 3 2 0 0 1 1 2

/-- The modulus. -/
def wq : Nat := P_512.toNat

theorem wq_int : (wq : Int) = P_512 := by decide +kernel

/-- The original file. -/
def wo : Bytes := toyFile 378

/-- The initial vector. -/
def wiv : Bytes := [1, 2, 3]

theorem wcfg : Config wp wq 3 2 := by
  obtain ⟨p, hp, cfg⟩ := toy_config 3 2 0 0 1 1 2 (by norm_num)
  have : p = wq := by have := wq_int; omega
  exact this ▸ cfg

theorem wo_len : wo.length = wp.dataL := by decide +kernel

theorem wL : LongModeOk wp 3 := (hashModes_ok (n := 3) (c := 2) rfl rfl (Or.inl (by norm_num)) (Or.inl (by norm_num))).1
theorem wS : ShortModeOk wp 3 2 := (hashModes_ok (n := 3) (c := 2) rfl rfl (Or.inl (by norm_num)) (Or.inl (by norm_num))).2
theorem wS' : ShortModeOk wp 2 2 := (hashModes_ok (n := 2) (c := 2) rfl rfl (Or.inl (by norm_num)) (Or.inl (by norm_num))).2

/-- The padded file. -/
def wf : Bytes := (copyAndPad wo wp.dataL wp.unitL).toOption.getD []

theorem wpad : copyAndPad wo wp.dataL wp.unitL = .ok wf := by decide +kernel

theorem wf_len : 3 * wp.blockPl ≤ wf.length := by decide +kernel

theorem wu : UnitsBelow wp wq 3 2 wf := by unfold UnitsBelow; decide +kernel

/-- What sealing returns. -/
def wst : SealState := (sealFile toyHash wp wf (wq : Int) wiv).toOption.getD ⟨[], [], []⟩

theorem wseal : sealFile toyHash wp wf (wq : Int) wiv = .ok wst := by
  have h : (sealFile toyHash wp wf (wq : Int) wiv).toOption.isSome = true := by decide +kernel
  unfold wst
  cases hs : sealFile toyHash wp wf (wq : Int) wiv with
  | ok s => rfl
  | error e => rw [hs] at h; cases h

theorem wlog : ∀ v ∈ wst.log, v ≠ 0 := by decide +kernel

/-- The mathematical description. -/
noncomputable def wD : Sealing := sealingOf toyHash wp wq 2 wiv (longOf toyHash wp 3) (shortOf toyHash wp 3 2)

theorem wd : describes wD toyHash wp wq 3 2 wiv := ⟨rfl, rfl, rfl, rfl, rfl, rfl, rfl, rfl, rfl⟩

/-- No encoder input of the world is zero, in the terms of the description. -/
theorem wnz : NoZeroAnywhere wD (fun k => (List.range 2).map
    (fun j => readFile wf ((k * 2 + j) * wp.unitPl) wp.unitPl)) 3 := by
  obtain ⟨st, h1, h2, -⟩ := C85_encodings toyHash toyHash_length wp wq 3 2 wcfg wL wS wf wiv wf_len wu wD wd
  have hs : wst = st := Except.ok.inj (wseal.symm.trans h1)
  intro k hk v hv
  exact wlog v (by
    rw [hs, h2]
    exact List.mem_flatMap.mpr ⟨k, List.mem_range.mpr hk, hv⟩)

/-- Another original file, which differs from the first in block 1. -/
def wo2 : Bytes := wo.set 130 99

/-- The other padded file. -/
def wf2 : Bytes := (copyAndPad wo2 wp.dataL wp.unitL).toOption.getD []

/-- The other sealing. -/
def wst2 : SealState := (sealFile toyHash wp wf2 (wq : Int) wiv).toOption.getD ⟨[], [], []⟩

theorem wo2_len : wo2.length = wp.dataL := by decide +kernel
theorem wne : wo ≠ wo2 := by decide +kernel
theorem wpad2 : copyAndPad wo2 wp.dataL wp.unitL = .ok wf2 := by decide +kernel
theorem wf2_len : 3 * wp.blockPl ≤ wf2.length := by decide +kernel
theorem wu2 : UnitsBelow wp wq 3 2 wf2 := by unfold UnitsBelow; decide +kernel

theorem ok_of_isSome {α : Type} {x : R α} {d : α} (h : x.toOption.isSome = true) : x = .ok (x.toOption.getD d) := by
  cases x with
  | ok s => rfl
  | error e => cases h

theorem wseal2 : sealFile toyHash wp wf2 (wq : Int) wiv = .ok wst2 := ok_of_isSome (by decide +kernel)
theorem wlog2 : ∀ v ∈ wst2.log, v ≠ 0 := by decide +kernel

/-- The toy hash never returns 32 zero bytes. -/
theorem whz (x : Bytes) : toyHash x ≠ zeros 32 := by
  intro h
  unfold toyHash at h
  generalize x.foldl (fun a b => a * 31 + b + 7) (11 : UInt8) = s at h
  have h0 : s = 0 := by
    have := congrArg (fun l => l[0]?) h
    simpa [zeros] using this
  subst h0
  revert h
  decide

/-- The stored public data. -/
def wpub : Bytes := saveData [] (wq : Int) wiv

theorem wload : loadData wpub = .ok ((wq : Int), wiv) := by
  refine C17_load_save [] (wq : Int) wiv ?_ (by decide)
  refine lt_of_le_of_lt (C17_key_length _ 200 (by norm_num) ?_) (by norm_num)
  decide +kernel

/-- The Merkle tree over the identifiers. -/
def wm : List Bytes × MerkleTree × Bytes :=
  (generateMerkleTreeFromData toyHash wst.ids).toOption.getD ([], ⟨[]⟩, [])

theorem wmerkle : generateMerkleTreeFromData toyHash wst.ids = .ok (wm.1, wm.2.1, wm.2.2) := by
  have h : (generateMerkleTreeFromData toyHash wst.ids).toOption.isSome = true := by decide +kernel
  unfold wm
  generalize generateMerkleTreeFromData toyHash wst.ids = x at h ⊢
  cases x with
  | ok s => rfl
  | error e => cases h

/-- The parameters with one sealing round. -/
def vp : PosPara := toyParams 3 2 0 0 1 1 1

theorem vcfg : Config vp wq 3 2 := by
  obtain ⟨p, hp, cfg⟩ := toy_config 3 2 0 0 1 1 1 (by norm_num)
  have : p = wq := by have := wq_int; omega
  exact this ▸ cfg

theorem vL : LongModeOk vp 3 := (hashModes_ok (n := 3) (c := 2) rfl rfl (Or.inl (by norm_num)) (Or.inl (by norm_num))).1
theorem vS : ShortModeOk vp 3 2 := (hashModes_ok (n := 3) (c := 2) rfl rfl (Or.inl (by norm_num)) (Or.inl (by norm_num))).2
theorem vu : UnitsBelow vp wq 3 2 wf := wu
theorem vpad : copyAndPad wo vp.dataL vp.unitL = .ok wf := wpad

/-- The description with one round. -/
noncomputable def vD : Sealing := sealingOf toyHash vp wq 2 wiv (longOf toyHash vp 3) (shortOf toyHash vp 3 2)

theorem vd : describes vD toyHash vp wq 3 2 wiv := ⟨rfl, rfl, rfl, rfl, rfl, rfl, rfl, rfl, rfl⟩

theorem wLc : LongCountOk 3 wp.cntL := Or.inl (by norm_num)
theorem wSc : ShortCountOk 2 wp.cntS := Or.inl (by norm_num)
theorem vLc : LongCountOk 3 vp.cntL := Or.inl (by norm_num)
theorem vSc : ShortCountOk 2 vp.cntS := Or.inl (by norm_num)

/-- A call that returns a value. -/
theorem okd {α : Type} [Inhabited α] {x : R α} (h : x.toOption.isSome = true) : x = .ok (x.toOption.getD default) :=
  ok_of_isSome h

/-- A call that seals. -/
theorem okd' {x : R SealState} (h : x.toOption.isSome = true) : x = .ok (x.toOption.getD ⟨[], [], []⟩) :=
  ok_of_isSome h

/-- A call that returns `some` value. -/
theorem oks {α : Type} [Inhabited α] {x : R (Option α)} (h : (x.toOption.getD none).isSome = true) :
    x = .ok (some ((x.toOption.getD none).getD default)) := by
  cases x with
  | ok s => cases s with
    | none => cases h
    | some a => rfl
  | error e => cases h

/-- The honest answer to a challenge of blocks 0 and 2. -/
def wr : Response := (proverRespond toyHash wp wst.file wm.2.1 7 [0, 2]).toOption.getD ⟨[], [], [], [], []⟩

theorem wrespond : proverRespond toyHash wp wst.file wm.2.1 7 [0, 2] = .ok wr := ok_of_isSome (by decide +kernel)

/-- A complete schedule for two blocks. -/
def wsched : List Nat := List.replicate 8 0 ++ List.replicate 8 1

/-- A hypothesis of a theorem, met by the world. -/
macro "w" : tactic => `(tactic| first
  | with_reducible first
    | exact wcfg | exact vcfg | exact toyHash_length | exact whz | exact wo_len | exact wo2_len | exact wL | exact wS
    | exact wS' | exact vL | exact vS | exact wpad | exact wpad2 | exact vpad | exact wf_len | exact wf2_len | exact wu
    | exact wu2 | exact vu | exact wseal | exact wseal2 | exact wlog | exact wlog2 | exact wd | exact vd | exact wnz
    | exact wne | exact wload | exact wrespond | exact wmerkle | exact wLc | exact wSc | exact vLc | exact vSc
  | decide +kernel)

end PoS.World
