import Verif.Proofs.SealTotal
import Verif.Spec.Storage

/-
Helper lemmas: from `Config` to the internal assumptions; unsealing arbitrary
content keeps lengths and does not panic.
-/

namespace PoS

theorem Config.keyOk {params : PosPara} {p n c : Nat} (h : Config params p n c) :
    KeyOk p params.unitPl := ⟨h.prime, h.mod4, h.fits, h.above_hash⟩

theorem Config.block_pos {params : PosPara} {p n c : Nat} (h : Config params p n c) :
    0 < params.blockL := by
  rw [h.block]; exact Nat.mul_pos h.c_pos h.unit_pos

theorem Config.layout {params : PosPara} {p n c : Nat} (h : Config params p n c) :
    Layout params n c where
  unit_pos := by rw [h.unit_pl]; omega
  block := h.block_pl
  cnt := by rw [h.data]; exact Nat.mul_div_cancel _ h.block_pos
  block_pos := h.block_pos

theorem Config.div {params : PosPara} {p n c : Nat} (h : Config params p n c) :
    div! params.dataL params.blockL = .ok n := by
  rw [div!_of_pos h.block_pos, h.layout.cnt]

theorem readFile_readFile (f : Bytes) (b L o l : Nat) (h : o + l ≤ L) :
    readFile (readFile f b L) o l = readFile f (b + o) l := by
  apply List.ext_getElem?
  intro i
  rw [readFile_getElem? (readFile f b L), readFile_getElem? f (b + o)]
  by_cases hi : i < l
  · rw [if_pos hi, if_pos hi, readFile_getElem?, if_pos (by omega), Nat.add_assoc]
    rfl
  · rw [if_neg hi, if_neg hi]

/-- The units of block `i` are the unit-sized reads of the file. -/
theorem blockOf_units {params : PosPara} {n c : Nat} (hlay : Layout params n c) (file : Bytes) (i : Nat) :
    ∃ us, toUnits (blockOf params file i) params.unitPl = .ok us ∧ us.length = c ∧
      (∀ u ∈ us, u.length = params.unitPl) ∧ us.flatten = blockOf params file i ∧
      ∀ j (hj : j < us.length), us[j] = readFile file ((i * c + j) * params.unitPl) params.unitPl := by
  have hbl : (blockOf params file i).length = c * params.unitPl := by
    unfold blockOf; rw [readFile_length, hlay.block]
  obtain ⟨us, h1, h2, h3, h4⟩ := toUnits_ok (blockOf params file i) params.unitPl c hlay.unit_pos hbl
  refine ⟨us, h1, h2, h3, h4, ?_⟩
  intro j hj
  have h5 := flatten_drop_take us params.unitPl j hj h3 []
  rw [List.append_nil, h4] at h5
  rw [← h5]
  unfold blockOf
  have hjc : j * params.unitPl + params.unitPl ≤ c * params.unitPl := block_index (by omega)
  rw [readFile_readFile _ _ _ _ _ (by rw [hlay.block]; exact hjc), hlay.block]
  congr 1
  ring

theorem UnitsBelow.blockOk {params : PosPara} {p n c : Nat} (hlay : Layout params n c) {file : Bytes}
    (h : UnitsBelow params p n c file) {i : Nat} (hi : i < n) : BlockOk params p c file i := by
  obtain ⟨us, h1, h2, h3, -, h5⟩ := blockOf_units hlay file i
  refine ⟨us, h1, h2, ?_⟩
  intro u hu
  refine ⟨h3 u hu, ?_⟩
  obtain ⟨j, hj, rfl⟩ := List.getElem_of_mem hu
  rw [h5 j hj]
  apply h
  have : i * c + c ≤ n * c := block_index hi
  omega

theorem BlockOk.unitsBelow {params : PosPara} {p n c : Nat} (hlay : Layout params n c) {file : Bytes}
    (hc : 0 < c) (h : ∀ i < n, BlockOk params p c file i) : UnitsBelow params p n c file := by
  intro j hj
  have hi : j / c < n := Nat.div_lt_of_lt_mul (by rw [Nat.mul_comm]; exact hj)
  obtain ⟨us, h1, h2, h3⟩ := h (j / c) hi
  obtain ⟨vs, g1, g2, -, -, g5⟩ := blockOf_units hlay file (j / c)
  rw [h1] at g1
  cases g1
  have hm : j % c < c := Nat.mod_lt _ hc
  have h6 := g5 (j % c) (by omega)
  have e : j / c * c + j % c = j := by rw [Nat.mul_comm]; exact Nat.div_add_mod j c
  rw [e] at h6
  rw [← h6]
  exact (h3 _ (List.getElem_mem _)).2

/-- `sealFile` is the block loop. -/
theorem sealPrefix_eq {H : Bytes → Bytes} {params : PosPara} {p n c : Nat} (cfg : Config params p n c)
    {file : Bytes} {iv : Bytes} {k : Nat} {st : SealState}
    (h : sealPrefix H params file (p : Int) iv k = .ok st) :
    ∃ idxsL idxsS, idxsLOf params n = .ok idxsL ∧ idxsSOf params n = .ok idxsS ∧
      forUp k (fun idx2 s => sealBlock H params (p : Int) iv n idxsL idxsS idx2 s)
        { file := file, ids := List.replicate n [], log := [] } = .ok st := by
  unfold sealPrefix at h
  rw [cfg.div, bind_ok, bind_eq_ok] at h
  obtain ⟨idxsL, hl, h⟩ := h
  rw [bind_eq_ok] at h
  obtain ⟨idxsS, hs, h⟩ := h
  exact ⟨idxsL, idxsS, hl, hs, h⟩

theorem sealFile_eq {H : Bytes → Bytes} {params : PosPara} {p n c : Nat} (cfg : Config params p n c)
    {file : Bytes} {iv : Bytes} : sealFile H params file (p : Int) iv = sealPrefix H params file (p : Int) iv n := by
  unfold sealFile
  rw [cfg.div, bind_ok]

theorem unsealFile_eq {H : Bytes → Bytes} {params : PosPara} {p n c : Nat} (cfg : Config params p n c)
    {file : Bytes} {iv : Bytes} : unsealFile H params file (p : Int) iv = unsealFrom H params file (p : Int) iv n := by
  unfold unsealFile
  rw [cfg.div, bind_ok]

theorem unsealFrom_eq {H : Bytes → Bytes} {params : PosPara} {p n c : Nat} (cfg : Config params p n c)
    {file : Bytes} {iv : Bytes} {k : Nat} {idxsL idxsS : List (List Nat)}
    (hl : idxsLOf params n = .ok idxsL) (hs : idxsSOf params n = .ok idxsS) :
    unsealFrom H params file (p : Int) iv k =
      forDown k (fun idx2 f => unsealBlock H params (p : Int) iv n idxsL idxsS idx2 f) file := by
  unfold unsealFrom
  rw [cfg.div, bind_ok, hl, bind_ok, hs, bind_ok]
  rfl

/-- The result of undoing `k` sealed blocks. -/
theorem unsealFrom_sealPrefix {H : Bytes → Bytes} (hH : ∀ x, (H x).length = 32) {params : PosPara}
    {p n c : Nat} (cfg : Config params p n c)
    (hmode : params.modeL = 0 ∨ ∀ t, idxsLOf params n = .ok t → PrefixLists t)
    {file : Bytes} (hlen : n * params.blockPl ≤ file.length) (hu : UnitsBelow params p n c file)
    {iv : Bytes} {k : Nat} (hkn : k ≤ n) {st : SealState}
    (h : sealPrefix H params file (p : Int) iv k = .ok st) (hlog : ∀ v ∈ st.log, v ≠ 0) :
    unsealFrom H params st.file (p : Int) iv k = .ok file := by
  obtain ⟨idxsL, idxsS, hl, hs, hrun⟩ := sealPrefix_eq cfg h
  rw [unsealFrom_eq cfg hl hs]
  have h0 : SealInv H params p n c file 0 { file := file, ids := List.replicate n [], log := [] } :=
    sealInv_zero (fun i hi => hu.blockOk cfg.layout hi)
  exact unseal_seal hH cfg.keyOk cfg.layout (idxsSOf_shortOk hs) (idxsLOf_longOk hl)
    (hmode.imp id (fun h => h _ hl)) hlen h0 hkn hrun hlog

/-! ### Unsealing arbitrary content -/

theorem powMod_range (x e : Int) {p : Nat} (hp : 0 < p) :
    0 ≤ powMod x e (p : Int) ∧ powMod x e (p : Int) < (p : Int) := by
  unfold powMod
  rw [powModNat_eq, Int.toNat_natCast]
  have := Nat.mod_lt ((x % (p : Int)).toNat ^ e.toNat) hp
  omega

theorem rug_singleSlothInv_range (y : Int) {p : Nat} (hp : 0 < p) :
    (Rug.singleSlothInv y (p : Int)).natAbs ≤ p := by
  unfold Rug.singleSlothInv
  simp only
  have key : ∀ x : Int, (if x.tmod 2 = 1 then (p : Int) - (powMod x 2 (p : Int)).tmod (p : Int)
      else powMod x 2 (p : Int)).natAbs ≤ p := by
    intro x
    obtain ⟨h1, h2⟩ := powMod_range x 2 hp
    obtain ⟨m, hm⟩ := Int.eq_ofNat_of_zero_le h1
    rw [hm] at h2 ⊢
    split
    · rw [tmod_natCast, Nat.mod_eq_of_lt (by omega)]; omega
    · simp; omega
  exact key _

theorem rug_vdeInv_length {p : Nat} (hp : p.Prime) (h34 : p % 4 = 3) {y : Bytes} {l t : Nat} {mode : String}
    (hy : y.length = l) (hfit : p ≤ 256 ^ l) : (Rug.vdeInv y (p : Int) t mode l).length = l := by
  have hlt : p < 256 ^ l := by
    rcases Nat.lt_or_ge p (256 ^ l) with h | h
    · exact h
    · exfalso
      have he : p = 256 ^ l := by omega
      cases l with
      | zero => simp at he; exact hp.one_lt.ne' he
      | succ l =>
        rw [Nat.pow_succ] at he
        omega
  have hb : (Rug.slothInv (leNat y : Int) (p : Int) t).natAbs < 256 ^ l := by
    cases t with
    | zero =>
      show ((leNat y : Int)).natAbs < _
      rw [Int.natAbs_natCast, ← hy]
      exact leNat_lt y
    | succ t =>
      exact lt_of_le_of_lt (rug_singleSlothInv_range _ hp.pos) hlt
  obtain ⟨w, k1, k2, -⟩ := pad_spec hb
  have : Rug.vdeInv y (p : Int) t mode l = w := by
    unfold Rug.vdeInv
    simp only [ite_self]
    exact k1
  rw [this, k2]

section

variable {H : Bytes → Bytes} (hH : ∀ x, (H x).length = 32) {params : PosPara} {p n c : Nat}
  (hk : KeyOk p params.unitPl)

include hH hk

/-- Lengths are kept by unsealing a unit. -/
theorem unsealUnit_length {iv : Bytes} {idxsS : List (List Nat)} {beforeId : Bytes}
    {deps : List (List Bytes)} {unitCnt idx2 idx1 : Nat} {cur cur' : List Bytes}
    (hu : ∀ u ∈ cur, u.length = params.unitPl)
    (h : unsealUnit H params (p : Int) iv idxsS beforeId deps unitCnt idx2 idx1 cur = .ok cur') :
    (∀ u ∈ cur', u.length = params.unitPl ) ∧ cur'.length = cur.length := by
  unfold unsealUnit at h
  rw [bind_eq_ok] at h
  obtain ⟨dd, -, h⟩ := h
  simp only at h
  rw [bind_eq_ok] at h
  obtain ⟨u, hu1, h⟩ := h
  rw [bind_eq_ok] at h
  obtain ⟨r, hr, h⟩ := h
  obtain ⟨hlt, rfl⟩ := put!_eq_ok.mp h
  have humem : u ∈ cur := List.mem_of_getElem? (at!_eq_ok.mp hu1)
  have hvl := rug_vdeInv_length hk.prime hk.mod4 (t := params.vdeRounds) (mode := params.vdeMode)
    (hu u humem) hk.fits
  obtain ⟨w, hw, hwl, -⟩ := modsub_spec (u := Rug.vdeInv u (p : Int) params.vdeRounds params.vdeMode params.unitPl)
    (h := H (if idx1 = 0 then if idx2 = 0 then dd ++ iv else dd ++ beforeId else dd)) hk.prime.pos
    (by rw [hvl]; exact hk.fits) (by have := hash_le hH hk (if idx1 = 0 then if idx2 = 0 then dd ++ iv else dd ++ beforeId else dd); omega)
  rw [hr] at hw
  cases hw
  refine ⟨?_, by simp⟩
  intro v hv
  rcases List.mem_or_eq_of_mem_set hv with h1 | h1
  · exact hu v h1
  · rw [h1, hwl, hvl]

theorem unsealRounds_length {iv : Bytes} {idxsS : List (List Nat)} {beforeId : Bytes}
    {deps : List (List Bytes)} {unitCnt idx2 : Nat} {cur cur' : List Bytes}
    (hu : ∀ u ∈ cur, u.length = params.unitPl)
    (h : unsealRoundsLoop H params (p : Int) iv idxsS beforeId deps unitCnt idx2 cur = .ok cur') :
    (∀ u ∈ cur', u.length = params.unitPl) ∧ cur'.length = cur.length := by
  unfold unsealRoundsLoop at h
  refine forUp_inv (fun _ (t : List Bytes) => (∀ u ∈ t, u.length = params.unitPl) ∧ t.length = cur.length)
    ⟨hu, rfl⟩ ?_ h
  intro k _ t t' hP hf
  refine forUp_inv (fun _ (t : List Bytes) => (∀ u ∈ t, u.length = params.unitPl) ∧ t.length = cur.length)
    hP ?_ hf
  intro j _ w w' ⟨hw1, hw2⟩ hf
  simp only [bind_eq_ok] at hf
  obtain ⟨a, -, i, -, hf⟩ := hf
  obtain ⟨g1, g2⟩ := unsealUnit_length hH hk hw1 hf
  exact ⟨g1, by omega⟩

/-- Unsealing a block only changes that block. -/
theorem unsealBlock_region (hlay : Layout params n c) {iv : Bytes} {idxsL idxsS : List (List Nat)}
    {k : Nat} (hkn : k < n) {file file' : Bytes} (hlen : n * params.blockPl ≤ file.length)
    (h : unsealBlock H params (p : Int) iv n idxsL idxsS k file = .ok file') :
    file'.length = file.length ∧
      ∀ i, (i < k * params.blockPl ∨ (k + 1) * params.blockPl ≤ i) → file'[i]? = file[i]? := by
  obtain ⟨us, h1, h2, h3, -, -⟩ := blockOf_units hlay file k
  have hread : readFile file (k * params.blockPl) params.blockPl = blockOf params file k := rfl
  unfold unsealBlock at h
  simp only [hread, h1, bind_ok] at h
  rw [bind_eq_ok] at h
  obtain ⟨deps, -, h⟩ := h
  rw [bind_eq_ok] at h
  obtain ⟨r, hr, h⟩ := h
  rw [comUnits_eq, bind_ok] at h
  cases h
  obtain ⟨g1, g2⟩ := unsealRounds_length hH hk h3 hr
  have hout : r.flatten.length = params.blockPl := by
    rw [flatten_length_const _ _ g1, g2, h2, hlay.block]
  have hkb := block_index (b := params.blockPl) hkn
  refine ⟨writeAt_length _ _ _ (by omega), ?_⟩
  intro i hi
  rw [Nat.add_mul, Nat.one_mul] at hi
  rw [writeAt_getElem? _ _ _ _ (by omega), if_neg (by omega)]

/-- Unsealing a unit of arbitrary content does not panic. -/
theorem unsealUnit_ok (hS : params.modeS = 0) (hc : ShortCountOk c params.cntS) {iv : Bytes} {idxsS : List (List Nat)}
    {beforeId : Bytes} {deps : List (List Bytes)} (hdeps : ∀ d ∈ deps, d.length = c)
    {cur : List Bytes} (hcur : cur.length = c) (hu : ∀ u ∈ cur, u.length = params.unitPl)
    {idx2 idx1 : Nat} (hi : idx1 < c) :
    ∃ cur', unsealUnit H params (p : Int) iv idxsS beforeId deps c idx2 idx1 cur = .ok cur' := by
  unfold unsealUnit
  obtain ⟨dd, hdd⟩ := sealDependData_ok hH (idxsS := idxsS) hS hc hdeps hcur hi
  rw [unsealDependData_eq, hdd, bind_ok]
  simp only
  rw [at!_of_lt (by omega), bind_ok]
  have hlen : (cur[idx1]'(by omega)).length = params.unitPl := hu _ (List.getElem_mem _)
  have hvl := rug_vdeInv_length hk.prime hk.mod4 (t := params.vdeRounds) (mode := params.vdeMode)
    hlen hk.fits
  obtain ⟨w, hw, -, -⟩ := modsub_spec
    (u := Rug.vdeInv (cur[idx1]'(by omega)) (p : Int) params.vdeRounds params.vdeMode params.unitPl)
    (h := H (if idx1 = 0 then if idx2 = 0 then dd ++ iv else dd ++ beforeId else dd)) hk.prime.pos
    (by rw [hvl]; exact hk.fits)
    (by have := hash_le hH hk (if idx1 = 0 then if idx2 = 0 then dd ++ iv else dd ++ beforeId else dd); omega)
  rw [hw, bind_ok, put!_of_lt (by omega)]
  exact ⟨_, rfl⟩

theorem unsealRounds_ok (hS : params.modeS = 0) (hc : ShortCountOk c params.cntS) {iv : Bytes} {idxsS : List (List Nat)}
    {beforeId : Bytes} {deps : List (List Bytes)} (hdeps : ∀ d ∈ deps, d.length = c)
    {cur : List Bytes} (hcur : cur.length = c) (hu : ∀ u ∈ cur, u.length = params.unitPl) {idx2 : Nat} :
    ∃ cur', unsealRoundsLoop H params (p : Int) iv idxsS beforeId deps c idx2 cur = .ok cur' := by
  unfold unsealRoundsLoop
  obtain ⟨t, ht, -⟩ := forUp_total (n := params.sealRounds) (s := cur) (f := fun _ s =>
    forUp c (fun j s => do
      let a ← sub! c 1
      let idx1 ← sub! a j
      unsealUnit H params (p : Int) iv idxsS beforeId deps c idx2 idx1 s) s)
    (fun _ (t : List Bytes) => (∀ u ∈ t, u.length = params.unitPl) ∧ t.length = c) ⟨hu, hcur⟩
    (by
      intro k _ t hP
      refine forUp_total (fun _ (t : List Bytes) => (∀ u ∈ t, u.length = params.unitPl) ∧ t.length = c) hP ?_
      intro j hj w ⟨hw1, hw2⟩
      rw [sub!_of_le (by omega), bind_ok, sub!_of_le (by omega), bind_ok]
      obtain ⟨w', hw'⟩ := unsealUnit_ok hH hk hS hc (iv := iv) (idxsS := idxsS) (beforeId := beforeId)
        (idx2 := idx2) (idx1 := c - 1 - j) hdeps hw2 hw1 (by omega)
      obtain ⟨g1, g2⟩ := unsealUnit_length hH hk hw1 hw'
      exact ⟨w', hw', g1, by omega⟩)
  exact ⟨t, ht⟩

theorem unsealBlock_ok (hlay : Layout params n c) (hS : params.modeS = 0) (hL : params.modeL = 0)
    (hn : LongCountOk n params.cntL) (hc : ShortCountOk c params.cntS) {iv : Bytes} {idxsL idxsS : List (List Nat)} (k : Nat)
    (file : Bytes) : ∃ file', unsealBlock H params (p : Int) iv n idxsL idxsS k file = .ok file' := by
  obtain ⟨us, h1, h2, h3, -, -⟩ := blockOf_units hlay file k
  have hread : readFile file (k * params.blockPl) params.blockPl = blockOf params file k := rfl
  have hdep : ∃ d, unsealDependBlocks H params n idxsL file (unsealBeforeId H params file k) k = .ok d ∧
      ∀ x ∈ d, x.length = c := by
    rw [unsealDependBlocks_eq (Or.inl hL), if_pos hL]
    have hcur : ∃ cur, (if k = 0 then pure []
          else
            if params.cntL = 0 then longModeRandom H n (unsealBeforeId H params file k) k (k / 10 + 1)
            else longModeRandom H n (unsealBeforeId H params file k) k params.cntL : R (List Nat)) = .ok cur := by
      split
      · exact ⟨[], rfl⟩
      · split
        · exact longModeRandom_some hH (by omega) _
        · exact longModeRandom_some hH (by omega) _
    obtain ⟨cur, hcur⟩ := hcur
    rw [hcur, bind_ok]
    exact readBlocks_ok hlay file cur
  obtain ⟨deps, hd, hdl⟩ := hdep
  obtain ⟨r, hr⟩ := unsealRounds_ok hH hk hS hc (iv := iv) (idxsS := idxsS)
    (beforeId := unsealBeforeId H params file k) (idx2 := k) hdl h2 h3
  unfold unsealBlock
  simp only [hread, h1, bind_ok, hd, h2, hr, comUnits_eq]
  exact ⟨_, rfl⟩

end

end PoS
