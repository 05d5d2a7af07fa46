import Verif.Model.ShortRead
import Verif.Spec.ShortRead
import Verif.Properties.Loss

/-
Reads that return fewer bytes than asked for: what is seen, and the sealing and unsealing loops.
-/

namespace PoS

set_option linter.unusedSectionVars false

/-! ### One read -/

theorem readFileShort_take (g : Nat) (f : Bytes) (b l : Nat) :
    readFileShort g f b l = readFile (f.take (b + g)) b l := by
  unfold readFileShort readFile
  have : (f.drop b).take (min g l) = ((f.take (b + g)).drop b).take l := by
    rw [List.drop_take, List.take_take, Nat.add_sub_cancel_left, Nat.min_comm]
  simp only [this]

@[simp] theorem cut_length (g : Nat) (b : Bytes) : (cut g b).length = b.length := by simp [cut]

theorem cut_getElem? (g : Nat) (b : Bytes) (i : Nat) :
    (cut g b)[i]? = b[i]?.map (fun x => if i < g then x else 0) := by
  simp [cut]

theorem cut_full {g : Nat} {b : Bytes} (h : b.length ≤ g) : cut g b = b := by
  apply List.ext_getElem?
  intro i
  rw [cut_getElem?]
  rcases Nat.lt_or_ge i b.length with hi | hi
  · rw [List.getElem?_eq_getElem hi, Option.map_some, if_pos (by omega)]
  · rw [List.getElem?_eq_none hi]; rfl

theorem readFile_take (g : Nat) (f : Bytes) (b o l : Nat) :
    readFile (f.take (b + g)) (b + o) l = cut (g - o) (readFile f (b + o) l) := by
  apply List.ext_getElem?
  intro i
  rw [cut_getElem?, readFile_getElem?, readFile_getElem?]
  by_cases hi : i < l
  · rw [if_pos hi, if_pos hi, Option.map_some, List.getElem?_take]
    congr 1
    by_cases h : i < g - o
    · rw [if_pos h, if_pos (by omega)]
    · rw [if_neg h, if_neg (by omega)]; rfl
  · rw [if_neg hi, if_neg hi]; rfl

theorem readFileShort_cut (g : Nat) (f : Bytes) (b l : Nat) : readFileShort g f b l = cut g (readFile f b l) := by
  rw [readFileShort_take]
  exact readFile_take g f b 0 l

theorem readFileShort_full {g l : Nat} (h : l ≤ g) (f : Bytes) (b : Nat) :
    readFileShort g f b l = readFile f b l := by
  rw [readFileShort_cut, cut_full (by rw [readFile_length]; exact h)]

theorem leNat_cut_le (g : Nat) (b : Bytes) : leNat (cut g b) ≤ leNat b := by
  induction b generalizing g with
  | nil => exact Nat.le_refl _
  | cons x b ih =>
    have hc : cut g (x :: b) = (if 0 < g then x else 0) :: cut (g - 1) b := by
      unfold cut
      rw [List.mapIdx_cons]
      congr 1
      congr 1
      funext t y
      by_cases h : t < g - 1
      · rw [if_pos h, if_pos (by omega)]
      · rw [if_neg h, if_neg (by omega)]
    rw [hc]
    have h1 := ih (g - 1)
    have h2 : (if 0 < g then x else 0).toNat ≤ x.toNat := by
      split
      · exact Nat.le_refl _
      · exact Nat.zero_le _
    simp only [leNat]
    omega

/-! ### Units -/

@[simp] theorem cutUnits_length (g l : Nat) (us : List Bytes) : (cutUnits g l us).length = us.length := by
  simp [cutUnits]

theorem cutUnits_full {g l : Nat} {us : List Bytes} (hl : ∀ u ∈ us, u.length = l) (h : us.length * l ≤ g) :
    cutUnits g l us = us := by
  apply List.ext_getElem
  · simp
  · intro j h1 h2
    have : (cutUnits g l us)[j] = cut (g - j * l) us[j] := by simp [cutUnits]
    rw [this]
    apply cut_full
    rw [hl _ (List.getElem_mem h2)]
    have : (j + 1) * l ≤ us.length * l := Nat.mul_le_mul_right _ h2
    rw [Nat.add_mul, Nat.one_mul] at this
    omega

theorem mem_cutUnits {g l : Nat} {us : List Bytes} {u : Bytes} (h : u ∈ cutUnits g l us) :
    ∃ v ∈ us, ∃ g', u = cut g' v := by
  unfold cutUnits at h
  obtain ⟨j, hj, rfl⟩ := List.mem_mapIdx.mp h
  exact ⟨us[j], List.getElem_mem _, _, rfl⟩

theorem cutUnits_unitsOk {p l g : Nat} {us : List Bytes} (h : UnitsOk p l us) : UnitsOk p l (cutUnits g l us) := by
  intro u hu
  obtain ⟨v, hv, g', rfl⟩ := mem_cutUnits hu
  obtain ⟨h1, h2⟩ := h v hv
  exact ⟨by rw [cut_length, h1], lt_of_le_of_lt (leNat_cut_le _ _) h2⟩

theorem toUnits_short {params : PosPara} {n c : Nat} (hlay : Layout params n c) (g : Nat) (file : Bytes) (k : Nat) :
    toUnits (readFileShort g file (k * params.blockPl) params.blockPl) params.unitPl =
      .ok (cutUnits g params.unitPl (plainUnits params c file k)) := by
  rw [readFileShort_take, toUnits_plain hlay]
  congr 1
  apply List.ext_getElem
  · simp [plainUnits]
  · intro j h1 h2
    have e1 : (cutUnits g params.unitPl (plainUnits params c file k))[j] =
        cut (g - j * params.unitPl) (readFile file ((k * c + j) * params.unitPl) params.unitPl) := by
      simp [cutUnits, plainUnits]
    have e2 : (plainUnits params c (file.take (k * params.blockPl + g)) k)[j] =
        readFile (file.take (k * params.blockPl + g)) ((k * c + j) * params.unitPl) params.unitPl := by
      simp [plainUnits]
    rw [e1, e2]
    have : (k * c + j) * params.unitPl = k * params.blockPl + j * params.unitPl := by
      rw [hlay.block, Nat.add_mul, Nat.mul_assoc]
    rw [this]
    exact readFile_take _ _ _ _ _

theorem forUp_mapIdx {α β : Type} {l : List α} {g : Nat → α → R β} {g' : Nat → α → β}
    (h : ∀ (m : Nat) (hm : m < l.length), g m l[m] = .ok (g' m l[m])) :
    forUp l.length (fun m res => do
      let x ← at! l m
      let y ← g m x
      pure (res ++ [y])) [] = .ok (l.mapIdx g') := by
  have key := forUp_total (n := l.length) (s := ([] : List β)) (f := fun m res => do
      let x ← at! l m
      let y ← g m x
      pure (res ++ [y])) (fun k res => res = (l.take k).mapIdx g') (by simp) (by
    rintro k hk s rfl
    refine ⟨_, by rw [at!_of_lt hk, bind_ok, h k hk, bind_ok]; rfl, ?_⟩
    rw [List.take_succ_eq_append_getElem hk, List.mapIdx_concat]
    congr 2
    rw [List.length_take, Nat.min_eq_left hk.le])
  obtain ⟨t, h1, h2⟩ := key
  rw [h1, h2, List.take_length]

theorem readBlocksShort_eq {params : PosPara} {n c : Nat} (hlay : Layout params n c) (got : Nat → Nat) (file : Bytes)
    (l : List Nat) :
    readBlocksShort got params file l =
      .ok ((l.map (plainUnits params c file)).mapIdx (fun m b => cutUnits (got m) params.unitPl b)) := by
  unfold readBlocksShort
  have := forUp_mapIdx (l := l) (g := fun m i => toUnits (readFileShort (got m) file (i * params.blockPl) params.blockPl)
    params.unitPl) (g' := fun m i => cutUnits (got m) params.unitPl (plainUnits params c file i))
    (fun m hm => toUnits_short hlay _ _ _)
  have e : (l.map (plainUnits params c file)).mapIdx (fun m b => cutUnits (got m) params.unitPl b) =
      l.mapIdx (fun m i => cutUnits (got m) params.unitPl (plainUnits params c file i)) := by
    apply List.ext_getElem
    · simp
    · intro i h1 h2
      simp
  rw [e]
  exact this

/-! ### The chosen blocks -/

/-- `seal` chooses the blocks of `long`. -/
def LongSel (H : Bytes → Bytes) (params : PosPara) (n : Nat) (idxsL : List (List Nat))
    (long : Bytes → Nat → List Nat) : Prop :=
  ∀ k < n, ∀ id : Bytes, (∀ i ∈ long id k, i < k) ∧ ∀ ids : List Bytes,
    (k ≠ 0 → ids[k - 1]? = some id) → sealLongIdxs H params n idxsL ids k = .ok (long id k)

theorem longSel {H : Bytes → Bytes} (hH : ∀ x, (H x).length = 32) {params : PosPara} {n : Nat}
    (ok : LongModeOk params n) :
    ∃ t, idxsLOf params n = .ok t ∧ LongSel H params n t (longOf H params n) := by
  obtain ⟨t, ht, his⟩ := longOf_is hH ok
  refine ⟨t, ht, fun k hk id => ⟨(his k hk id).1, fun ids hids => ?_⟩⟩
  obtain ⟨h0, h2, h3⟩ := ok
  unfold sealLongIdxs longOf
  by_cases hL : params.modeL = 0
  · rw [if_pos hL, if_pos hL]
    by_cases hk0 : k = 0
    · rw [if_pos hk0]
      unfold hashLong
      rw [if_pos hk0]; rfl
    · rw [if_neg hk0, at!_eq_ok.mpr (hids hk0), bind_ok]
      unfold hashLong
      rw [if_neg hk0]
      by_cases hz : params.cntL = 0
      · simp only [if_pos hz]
        rw [longModeRandom_eq hH (by have := h0 hL; omega) (by omega), sortDedup_eq_sort]
      · simp only [if_neg hz]
        rw [longModeRandom_eq hH (by have := h0 hL; omega) (by omega), sortDedup_eq_sort]
  · rw [if_neg hL, if_neg hL]
    unfold idxsLOf at ht
    rw [if_pos hL] at ht
    have hok := staticLong_ok (mode := params.modeL) (cnt := params.cntL) (n := n) h2 h3
    obtain ⟨t', ht', -, hti⟩ := table_of hok
    have : t' = t := Except.ok.inj (ht'.symm.trans ht)
    subst this
    exact at!_eq_ok.mpr (hti k hk)

/-- `unseal` chooses the blocks of `long`. -/
def UnsealLongSel (H : Bytes → Bytes) (params : PosPara) (n : Nat) (idxsL : List (List Nat))
    (long : Bytes → Nat → List Nat) : Prop :=
  ∀ k < n, ∀ id : Bytes, (∀ i ∈ long id k, i < k) ∧ unsealLongIdxs H params n idxsL id k = .ok (long id k)

theorem unsealLongSel {H : Bytes → Bytes} (hH : ∀ x, (H x).length = 32) {params : PosPara} {n c : Nat}
    (hlay : Layout params n c) (ok : LongModeOk params n) :
    ∃ t, idxsLOf params n = .ok t ∧ UnsealLongSel H params n t (unsealLongOf H params n) := by
  obtain ⟨t, ht, his⟩ := unsealLongOf_is hH hlay ok
  refine ⟨t, ht, fun k hk id => ⟨(his k hk id).1, ?_⟩⟩
  obtain ⟨h0, h2, h3⟩ := ok
  unfold unsealLongIdxs unsealLongOf
  by_cases hL : params.modeL = 0
  · rw [if_pos hL, if_pos hL]
    by_cases hk0 : k = 0
    · rw [if_pos hk0]
      unfold hashLong
      rw [if_pos hk0]; rfl
    · rw [if_neg hk0]
      unfold hashLong
      rw [if_neg hk0]
      by_cases hz : params.cntL = 0
      · simp only [if_pos hz]
        rw [longModeRandom_eq hH (by have := h0 hL; omega) (by omega), sortDedup_eq_sort]
      · simp only [if_neg hz]
        rw [longModeRandom_eq hH (by have := h0 hL; omega) (by omega), sortDedup_eq_sort]
  · rw [if_neg hL, if_neg hL]
    unfold idxsLOf at ht
    rw [if_pos hL] at ht
    have hok := staticLong_ok (mode := params.modeL) (cnt := params.cntL) (n := n) h2 h3
    obtain ⟨t', ht', -, hti⟩ := table_of hok
    have : t' = t := Except.ok.inj (ht'.symm.trans ht)
    subst this
    rw [at!_eq_ok.mpr (hti k hk)]; rfl

/-! ### Sealing -/

section

variable {H : Bytes → Bytes} (hH : ∀ x, (H x).length = 32) {params : PosPara} {p n c : Nat}
  (hk : KeyOk p params.unitPl) (hlay : Layout params n c) {iv : Bytes} {long short : Bytes → Nat → List Nat}
  {idxsL idxsS : List (List Nat)} (hshort : ShortIs H params c idxsS short)
  (own : Nat → Nat) (dep : Nat → Nat → Nat)

theorem cutSealedBlocks_length (S : Sealing) (plain : Nat → List Bytes) (k : Nat) :
    (S.cutSealedBlocks own dep plain k).length = k := by
  induction k with
  | zero => rfl
  | succ k ih => simp [Sealing.cutSealedBlocks, ih]

theorem cutSealedBlocks_getD (S : Sealing) (plain : Nat → List Bytes) {j k m : Nat} (hj : j < k) (hm : k ≤ m) :
    (S.cutSealedBlocks own dep plain m).getD j [] = (S.cutSealedBlocks own dep plain k).getD j [] := by
  induction m with
  | zero => omega
  | succ m ih =>
    rcases Nat.lt_or_ge k (m + 1) with h | h
    · rw [← ih (by omega)]
      rw [show S.cutSealedBlocks own dep plain (m + 1) = S.cutSealedBlocks own dep plain m ++ _ from rfl,
        getD_append_lt _ _ _ (by rw [cutSealedBlocks_length]; omega)]
    · rw [show k = m + 1 by omega]

/-- What is true after `k` blocks. -/
structure CutInv (S : Sealing) (n : Nat) (params : PosPara) (file0 : Bytes) (k : Nat) (s : SealState) : Prop where
  len : s.file.length = file0.length
  ids_len : s.ids.length = n
  blocks : ∀ j < k, blockOf params s.file j =
    ((S.cutSealedBlocks own dep (plainUnits params S.c file0) k).getD j []).flatten
  shape : ∀ j < k, ((S.cutSealedBlocks own dep (plainUnits params S.c file0) k).getD j []).length = S.c ∧
    UnitsOk S.p params.unitPl ((S.cutSealedBlocks own dep (plainUnits params S.c file0) k).getD j [])
  ids : ∀ j < k, s.ids[j]? = some (S.H ((S.cutSealedBlocks own dep (plainUnits params S.c file0) k).getD j []).flatten)
  tail : ∀ i, k * params.blockPl ≤ i → s.file[i]? = file0[i]?

variable (hlong : LongSel H params n idxsL long)

include hH hk hlay hshort hlong in
theorem sealBlockShort_exact {file0 : Bytes} (hlen : n * params.blockPl ≤ file0.length)
    (hu : ∀ i < n, BlockOk params p c file0 i) {k : Nat} (hkn : k < n) {s : SealState}
    (hinv : CutInv own dep (sealingOf H params p c iv long short) n params file0 k s) :
    ∃ s', sealBlockShort (own k) (dep k) H params (p : Int) iv n idxsL idxsS k s = .ok s' ∧
      CutInv own dep (sealingOf H params p c iv long short) n params file0 (k + 1) s' := by
  set S := sealingOf H params p c iv long short with hSdef
  set done := S.cutSealedBlocks own dep (plainUnits params S.c file0) k with hdone
  have hb1 : (k + 1) * params.blockPl ≤ n * params.blockPl := Nat.mul_le_mul_right _ hkn
  have hb2 : (k + 1) * params.blockPl = k * params.blockPl + params.blockPl := by rw [Nat.add_mul, Nat.one_mul]
  -- the block as read
  have hplain : plainUnits params c s.file k = plainUnits params c file0 k :=
    plainUnits_congr hlay (readFile_congr (fun i h1 _ => hinv.tail i h1))
  obtain ⟨us, hus, husl, husok⟩ := hu k hkn
  have hus' : us = plainUnits params c file0 k := by
    have : toUnits (blockOf params file0 k) params.unitPl = .ok (plainUnits params c file0 k) := toUnits_plain hlay file0 k
    rw [hus] at this
    exact Except.ok.inj this
  subst hus'
  set cur := cutUnits (own k) params.unitPl (plainUnits params c file0 k) with hcur
  have hcurl : cur.length = c := by rw [hcur, cutUnits_length]; exact husl
  have hcurok : UnitsOk p params.unitPl cur := cutUnits_unitsOk husok
  -- the dependency blocks
  set id := S.H (done.getD (k - 1) []).flatten with hid
  obtain ⟨hlt, hsel⟩ := hlong k hkn id
  have hsel := hsel s.ids (fun hk0 => by rw [hinv.ids (k - 1) (by omega)])
  have hdone : ∀ i < k, plainUnits params c s.file i = done.getD i [] := fun i hi =>
    plainUnits_of_flatten hlay hlay.unit_pos (fun u hu => ((hinv.shape i hi).2 u hu).1) (hinv.blocks i hi)
  set deps := S.cutDependencies (dep k) done k with hdepsdef
  have hdepsEq : readBlocksShort (dep k) params s.file (long id k) = .ok deps := by
    rw [readBlocksShort_eq hlay]
    congr 2
    show (long id k).map _ = (long id k).map _
    exact List.map_congr_left fun i hi => hdone i (hlt i hi)
  have hdeps : ∀ d ∈ deps, d.length = c := by
    intro d hd
    rw [hdepsdef] at hd
    unfold Sealing.cutDependencies at hd
    obtain ⟨m, hm, rfl⟩ := List.mem_mapIdx.mp hd
    rw [cutUnits_length]
    have : (S.dependencies done k)[m] ∈ S.dependencies done k := List.getElem_mem _
    unfold Sealing.dependencies at this
    obtain ⟨i, hi, he⟩ := List.mem_map.mp this
    have he : (S.dependencies done k)[m] = done.getD i [] := he.symm
    rw [he]
    exact (hinv.shape i (hlt i hi)).1
  set chain := S.chaining done k with hchaindef
  have hchain : if k = 0 then chain = iv else s.ids[k - 1]? = some chain := by
    unfold Sealing.chaining at hchaindef
    split
    · next h => rw [hchaindef, if_pos h]; rfl
    · next h => rw [hchaindef, if_neg h]; exact hinv.ids (k - 1) (by omega)
  obtain ⟨r, hr1, hr2, ⟨hr3, hr4⟩, hr5⟩ := sealRoundsLoop_eq hH hk (iv := iv) (long := long) hshort
    (s := (cur, s.log)) hchain hdeps hcurl hcurok
  have hout : r.1.flatten.length = params.blockPl := by
    rw [flatten_length_const r.1 params.unitPl (fun u hu => (hr4 u hu).1), hr3, hlay.block]
  have hnew : S.cutSealedBlocks own dep (plainUnits params S.c file0) (k + 1) = done ++ [r.1] := by
    rw [hr2]; rfl
  have hdl : done.length = k := cutSealedBlocks_length _ _ _ _ _
  have hoff : k * params.blockPl + r.1.flatten.length ≤ s.file.length := by
    rw [hout, hinv.len]; omega
  refine ⟨{ file := writeAt s.file (k * params.blockPl) r.1.flatten, ids := s.ids.set k (H r.1.flatten), log := r.2 },
    ?_, ?_⟩
  · unfold sealBlockShort
    simp only
    rw [toUnits_short hlay, bind_ok, hplain, hsel, bind_ok, hdepsEq, bind_ok]
    rw [← hcur, hcurl, hr1, bind_ok, comUnits_eq, bind_ok,
      put!_of_lt (by rw [hinv.ids_len]; exact hkn), bind_ok]
    rfl
  · have hget : ∀ j < k, (done ++ [r.1]).getD j [] = done.getD j [] := fun j hj =>
      getD_append_lt _ _ _ (by omega)
    have hlast : (done ++ [r.1]).getD k [] = r.1 := by
      rw [List.getD_eq_getElem?_getD, List.getElem?_append_right (by omega), hdl, Nat.sub_self]; rfl
    refine ⟨?_, ?_, ?_, ?_, ?_, ?_⟩
    · rw [writeAt_length _ _ _ hoff]; exact hinv.len
    · rw [List.length_set]; exact hinv.ids_len
    · intro j hj
      rw [hnew]
      unfold blockOf
      rcases Nat.lt_or_ge j k with h | h
      · rw [hget j h, readFile_writeAt_disjoint _ _ _ _ _ (by omega) (Or.inl (block_index h))]
        exact hinv.blocks j h
      · have h1 := readFile_writeAt_same s.file r.1.flatten (k * params.blockPl) (by omega)
        rw [hout] at h1
        rw [show j = k by omega, hlast]
        exact h1
    · intro j hj
      rw [hnew]
      rcases Nat.lt_or_ge j k with h | h
      · rw [hget j h]; exact hinv.shape j h
      · rw [show j = k by omega, hlast]; exact ⟨hr3, hr4⟩
    · intro j hj
      rw [hnew]
      rcases Nat.lt_or_ge j k with h | h
      · rw [hget j h, List.getElem?_set_ne (by omega)]; exact hinv.ids j h
      · rw [show j = k by omega, hlast, List.getElem?_set_self (by rw [hinv.ids_len]; exact hkn)]; rfl
    · intro i hi
      rw [writeAt_getElem? _ _ _ _ (by omega), if_neg (by rw [hout]; omega)]
      exact hinv.tail i (by omega)

include hH hk hlay hshort hlong in
theorem sealLoopShort_exact {file0 : Bytes} (hlen : n * params.blockPl ≤ file0.length)
    (hu : ∀ i < n, BlockOk params p c file0 i) :
    ∃ s', forUp n (fun idx2 s => sealBlockShort (own idx2) (dep idx2) H params (p : Int) iv n idxsL idxsS idx2 s)
        { file := file0, ids := List.replicate n [], log := [] } = .ok s' ∧
      CutInv own dep (sealingOf H params p c iv long short) n params file0 n s' := by
  refine forUp_total (fun k s => CutInv own dep (sealingOf H params p c iv long short) n params file0 k s) ?_ ?_
  · exact ⟨rfl, List.length_replicate, fun j hj => absurd hj (by omega), fun j hj => absurd hj (by omega),
      fun j hj => absurd hj (by omega), fun _ _ => rfl⟩
  · intro k hk' s hs
    exact sealBlockShort_exact hH hk hlay hshort own dep hlong hlen hu (by omega) hs

end

/-! ### Unsealing -/

section

variable {H : Bytes → Bytes} (hH : ∀ x, (H x).length = 32) {params : PosPara} {p n c : Nat}
  (hk : KeyOk p params.unitPl) (hlay : Layout params n c)
  {iv : Bytes} {long short : Bytes → Nat → List Nat}
  {idxsL idxsS : List (List Nat)} (hshort : ShortIs H params c idxsS short)
  (hlong : UnsealLongSel H params n idxsL long) (own before : Nat → Nat) (dep : Nat → Nat → Nat)

include hH hk hlay hshort hlong in
theorem unsealBlockShort_exact {k : Nat} (hkn : k < n) (file : Bytes) :
    let b := (sealingOf H params p c iv long short).cutUnsealedBlock
        ((undelay p)^[params.vdeRounds]) (own k) (before k) (dep k) (plainUnits params c file) k
    unsealBlockShort (own k) (before k) (dep k) H params (p : Int) iv n idxsL idxsS k file =
      .ok (writeAt file (k * params.blockPl) b.flatten) ∧ b.length = c ∧ ∀ u ∈ b, u.length = params.unitPl := by
  intro b
  set S := sealingOf H params p c iv long short with hSd
  set id := S.H (cut (before k) (plainUnits params c file (k - 1)).flatten) with hid
  set bid := (if k ≠ 0 then H (readFileShort (before k) file ((k - 1) * params.blockPl) params.blockPl) else [])
    with hbid
  have hide : (if k = 0 then iv else bid) = (if k = 0 then S.iv else id) := by
    by_cases h0 : k = 0
    · rw [if_pos h0, if_pos h0]; rfl
    · rw [if_neg h0, if_neg h0, hid, plainUnits_flatten hlay, hbid, if_pos h0, readFileShort_cut]
      rfl
  have hlongid : long bid k = long id k := by
    by_cases h0 : k = 0
    · have e1 : ∀ x : Bytes, long x k = [] := by
        intro x
        by_contra hne
        obtain ⟨i, hi⟩ := List.exists_mem_of_ne_nil _ hne
        have := (hlong k hkn x).1 i hi
        omega
      rw [e1, e1]
    · have : bid = id := by simpa only [if_neg h0] using hide
      rw [this]
  set deps := (((S.long id k).map (plainUnits params c file)).mapIdx (fun m b => cutUnits (dep k m) S.unitPl b)) with hdeps
  have hdl : ∀ d ∈ deps, d.length = c := by
    intro d hd
    rw [hdeps] at hd
    obtain ⟨m, hm, rfl⟩ := List.mem_mapIdx.mp hd
    rw [cutUnits_length, List.getElem_map, plainUnits_length]
  set cur := cutUnits (own k) params.unitPl (plainUnits params c file k) with hcur
  have hcl : cur.length = c := by rw [hcur, cutUnits_length, plainUnits_length]
  have hcu : ∀ u ∈ cur, u.length = params.unitPl := by
    intro u hu
    obtain ⟨v, hv, g', rfl⟩ := mem_cutUnits hu
    rw [cut_length, plainUnits_unit _ _ _ _ v hv]
  obtain ⟨l1, l2, l3⟩ := unsealLoop_eq (S := S) (dec := (undelay p)^[params.vdeRounds])
    (deps := deps) (chain := if k = 0 then S.iv else id)
    (F := fun j b => unsealUnit H params (p : Int) iv idxsS bid deps c k j b)
    (cur := cur) (by
      intro j hj b hb hub
      rw [← hide]
      exact unsealUnit_eq hH hk hshort hdl hb hub hj) hcl hcu
  refine ⟨?_, l2, l3⟩
  unfold unsealBlockShort
  simp only []
  rw [← hbid, toUnits_short hlay, bind_ok, (hlong k hkn bid).2, bind_ok, hlongid, readBlocksShort_eq hlay, bind_ok,
    ← hcur, hcl]
  unfold unsealRoundsLoop
  have l1' : forUp params.sealRounds (fun _ s =>
      forUp c (fun j s => do
        let a ← sub! c 1
        let idx1 ← sub! a j
        unsealUnit H params (p : Int) iv idxsS bid deps c k idx1 s) s) cur = _ := l1
  rw [show ((long id k).map (plainUnits params c file)).mapIdx (fun m b => cutUnits (dep k m) params.unitPl b) = deps from rfl,
    l1', bind_ok, comUnits_eq, bind_ok]
  rfl

include hH hk hlay hshort hlong in
theorem unsealLoopShort_exact {file : Bytes} (hlen : n * params.blockPl ≤ file.length) :
    ∃ out, forUp n (fun i f => do
        let a ← sub! n 1
        let idx2 ← sub! a i
        unsealBlockShort (own idx2) (before idx2) (dep idx2) H params (p : Int) iv n idxsL idxsS idx2 f) file = .ok out ∧
      (∀ k < n, blockOf params out k = ((sealingOf H params p c iv long short).cutUnsealedBlock
        ((undelay p)^[params.vdeRounds]) (own k) (before k) (dep k) (plainUnits params c file) k).flatten) ∧
      out.length = file.length ∧ ∀ i, n * params.blockPl ≤ i → out[i]? = file[i]? := by
  set S := sealingOf H params p c iv long short with hSd
  set dec := (undelay p)^[params.vdeRounds] with hdec
  obtain ⟨out, h1, h2, h3, h4, h5⟩ := forUp_total (n := n) (s := file) (f := fun i f => do
        let a ← sub! n 1
        let idx2 ← sub! a i
        unsealBlockShort (own idx2) (before idx2) (dep idx2) H params (p : Int) iv n idxsL idxsS idx2 f)
    (fun i f => (∀ k < n, n - i ≤ k → blockOf params f k =
        (S.cutUnsealedBlock dec (own k) (before k) (dep k) (plainUnits params c file) k).flatten) ∧ f.length = file.length ∧
      (∀ x, n * params.blockPl ≤ x → f[x]? = file[x]?) ∧ (∀ x, x < (n - i) * params.blockPl → f[x]? = file[x]?))
    ⟨fun k hk hk' => by omega, rfl, fun _ _ => rfl, fun _ _ => rfl⟩ (by
      intro i hi f ⟨b1, b2, b3, b4⟩
      have hkn : n - 1 - i < n := by omega
      set k := n - 1 - i with hkdef
      rw [sub!_of_le (by omega), bind_ok, sub!_of_le (by omega), bind_ok]
      obtain ⟨e1, e2, e3⟩ := unsealBlockShort_exact hH hk hlay hshort hlong own before dep (iv := iv) hkn f
      have hk1 : n - i = k + 1 := by omega
      have hsame : ∀ j ≤ k, plainUnits params c f j = plainUnits params c file j := by
        intro j hj
        refine plainUnits_congr hlay (readFile_congr fun x hx1 hx2 => b4 x ?_)
        have : (j + 1) * params.blockPl ≤ (n - i) * params.blockPl := Nat.mul_le_mul_right _ (by omega)
        rw [Nat.add_mul, Nat.one_mul] at this
        omega
      have hblk : S.cutUnsealedBlock dec (own k) (before k) (dep k) (plainUnits params c f) k =
          S.cutUnsealedBlock dec (own k) (before k) (dep k) (plainUnits params c file) k := by
        unfold Sealing.cutUnsealedBlock
        simp only
        rw [hsame k (Nat.le_refl k), hsame (k - 1) (by omega)]
        congr 2
        refine List.map_congr_left fun j hj => hsame j ?_
        exact ((hlong k hkn _).1 j hj).le
      rw [← hSd, ← hdec] at e1 e2 e3
      rw [hblk] at e1 e2 e3
      set B := S.cutUnsealedBlock dec (own k) (before k) (dep k) (plainUnits params c file) k with hB
      have hout : B.flatten.length = params.blockPl := by
        rw [flatten_length_const _ _ e3, e2, hlay.block]
      have hkb : k * params.blockPl + params.blockPl ≤ n * params.blockPl := block_index hkn
      have hw : ∀ x, (writeAt f (k * params.blockPl) B.flatten)[x]? =
          if k * params.blockPl ≤ x ∧ x < k * params.blockPl + params.blockPl then
            B.flatten[x - k * params.blockPl]? else f[x]? := by
        intro x
        rw [writeAt_getElem? _ _ _ _ (by omega), hout]
      refine ⟨_, e1, ?_, ?_, ?_, ?_⟩
      · intro j hj hj'
        rcases Nat.lt_or_ge k j with h | h
        · rw [← b1 j hj (by omega)]
          refine readFile_congr fun x hx1 hx2 => ?_
          have := block_index (b := params.blockPl) h
          rw [hw, if_neg (by omega)]
        · have hjk : j = k := by omega
          subst hjk
          rw [← hB]
          have := readFile_writeAt_same f B.flatten (k * params.blockPl) (by omega)
          rw [hout] at this
          exact this
      · rw [writeAt_length _ _ _ (by rw [hout]; omega)]; exact b2
      · intro x hx
        rw [hw, if_neg (by omega)]
        exact b3 x hx
      · intro x hx
        have e : n - (i + 1) = k := by omega
        rw [e] at hx
        rw [hw, if_neg (by omega)]
        refine b4 x ?_
        have : k * params.blockPl ≤ (n - i) * params.blockPl := Nat.mul_le_mul_right _ (by omega)
        omega)
  exact ⟨out, h1, fun k hk => h2 k hk (by omega), h3, h4⟩

end

end PoS
