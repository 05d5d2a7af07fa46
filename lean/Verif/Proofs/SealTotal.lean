import Verif.Proofs.Seal
import Verif.Proofs.Select
import Verif.Spec.Sealing

/-
Helper lemmas: `seal` does not panic with hash-chosen dependencies; padding and
compressing; the invariant holds initially.
-/

namespace PoS

theorem forEach_at_ok {l : List Nat} {cur : List Bytes} (h : ∀ j ∈ l, j < cur.length) (acc : Bytes) :
    ∃ r, forEach l (fun j res => do
      let u ← at! cur j
      pure (res ++ u)) acc = .ok r := by
  obtain ⟨t, ht, -⟩ := forEach_total (l := l) (F := fun j res => do
      let u ← at! cur j
      pure (res ++ u)) (s := acc) (fun _ => True) trivial
    (fun x hx s _ => ⟨_, by rw [at!_of_lt (h x hx)]; rfl, trivial⟩)
  exact ⟨t, ht⟩

section

variable {H : Bytes → Bytes} (hH : ∀ x, (H x).length = 32) {params : PosPara} {p n c : Nat}

include hH

theorem sealDependData_ok (hS : params.modeS = 0) (hc : ShortCountOk c params.cntS) {idxsS : List (List Nat)}
    {deps : List (List Bytes)} (hdeps : ∀ d ∈ deps, d.length = c) {cur : List Bytes}
    (hcur : cur.length = c) {idx1 : Nat} (hi : idx1 < c) :
    ∃ r, sealDependData H params idxsS deps cur c idx1 = .ok r := by
  unfold sealDependData
  obtain ⟨res, hres, -⟩ := forUp_total (n := deps.length) (f := fun i res => do
    let b ← at! deps i
    let u ← at! b idx1
    pure (res ++ u)) (s := ([] : Bytes)) (fun _ _ => True) trivial
    (fun k hk s _ => by
      have hd : (deps[k]).length = c := hdeps _ (List.getElem_mem hk)
      exact ⟨_, by rw [at!_of_lt hk, bind_ok, at!_of_lt (by omega)]; rfl, trivial⟩)
  rw [hres, bind_ok, if_neg (by simp [hS])]
  have hans : ∃ l, (if idx1 = 0 then shortDependRandom H c [] idx1 params.cntS
        else do
          let before ← at! cur (idx1 - 1)
          shortDependRandom H c before idx1 params.cntS : R (List Nat)) = .ok l ∧ ∀ j ∈ l, j < cur.length := by
    split
    · obtain ⟨l, hl⟩ := shortDependRandom_some hH (index := idx1) (count := params.cntS)
        (show 0 < c by omega) hc []
      exact ⟨l, hl, fun j hj => by have := ((shortDependRandom_spec hl).2.2.1 j hj).2; omega⟩
    · rw [at!_of_lt (by omega), bind_ok]
      obtain ⟨l, hl⟩ := shortDependRandom_some hH (index := idx1) (count := params.cntS)
        (show 0 < c by omega) hc cur[idx1 - 1]
      exact ⟨l, hl, fun j hj => by have := ((shortDependRandom_spec hl).2.2.1 j hj).2; omega⟩
  obtain ⟨l, hl, hlt⟩ := hans
  rw [hl, bind_ok]
  exact forEach_at_ok hlt res

variable (hk : KeyOk p params.unitPl)

include hk

theorem sealUnit_ok (hS : params.modeS = 0) (hc : ShortCountOk c params.cntS) {iv : Bytes} {idxsS : List (List Nat)}
    {ids : List Bytes} {deps : List (List Bytes)} (hdeps : ∀ d ∈ deps, d.length = c)
    {s : List Bytes × List Nat} (hcur : s.1.length = c) (hu : UnitsOk p params.unitPl s.1)
    {idx2 idx1 : Nat} (hi : idx1 < c) (hids : idx2 ≠ 0 → idx2 - 1 < ids.length) :
    ∃ s', sealUnit H params (p : Int) iv idxsS ids deps c idx2 idx1 s = .ok s' := by
  unfold sealUnit
  obtain ⟨dd, hdd⟩ := sealDependData_ok hH (idxsS := idxsS) hS hc hdeps hcur hi
  simp only
  rw [hdd, bind_ok]
  have h2 : ∃ d2, (if idx1 = 0 then
      if idx2 = 0 then pure (dd ++ iv)
      else do
        let before ← at! ids (idx2 - 1)
        pure (dd ++ before)
    else pure dd : R Bytes) = .ok d2 := by
    split
    · split
      · exact ⟨_, rfl⟩
      · rename_i h
        rw [at!_of_lt (hids h)]
        exact ⟨_, rfl⟩
    · exact ⟨_, rfl⟩
  obtain ⟨d2, hd2⟩ := h2
  rw [hd2, bind_ok, at!_of_lt (by omega), bind_ok]
  have hlen : (s.1[idx1]'(by omega)).length = params.unitPl := (hu _ (List.getElem_mem _)).1
  obtain ⟨r, hr, -, -⟩ := modadd_spec (u := s.1[idx1]'(by omega)) (h := H d2) hk.prime.pos
    (by rw [hlen]; exact hk.fits)
  rw [hr, bind_ok, put!_of_lt (by omega), bind_ok]
  exact ⟨_, rfl⟩

theorem sealRoundsLoop_ok (hS : params.modeS = 0) (hc : ShortCountOk c params.cntS) {iv : Bytes} {idxsS : List (List Nat)}
    (hs : ShortOk idxsS) {ids : List Bytes} {deps : List (List Bytes)} (hdeps : ∀ d ∈ deps, d.length = c)
    {s : List Bytes × List Nat} (hcur : s.1.length = c) (hu : UnitsOk p params.unitPl s.1)
    {idx2 : Nat} {beforeId : Bytes} (hb : idx2 ≠ 0 → ids[idx2 - 1]? = some beforeId) :
    ∃ s', sealRoundsLoop H params (p : Int) iv idxsS ids deps c idx2 s = .ok s' := by
  have hids : idx2 ≠ 0 → idx2 - 1 < ids.length := fun h =>
    (List.getElem?_eq_some_iff.mp (hb h)).1
  unfold sealRoundsLoop
  obtain ⟨t, ht, -⟩ := forUp_total (n := params.sealRounds) (s := s) (f := fun _ s =>
    forUp c (fun idx1 s =>
      sealUnit H params (p : Int) iv idxsS ids deps c idx2 idx1 s) s)
    (fun _ (t : List Bytes × List Nat) => t.1.length = c ∧ UnitsOk p params.unitPl t.1) ⟨hcur, hu⟩
    (by
      intro k _ t ⟨ht1, ht2⟩
      exact forUp_total (fun _ (t : List Bytes × List Nat) => t.1.length = c ∧ UnitsOk p params.unitPl t.1) ⟨ht1, ht2⟩
        (by
          intro i hi w ⟨hw1, hw2⟩
          obtain ⟨w', hw'⟩ := sealUnit_ok hH hk hS hc (iv := iv) (idxsS := idxsS) hdeps hw1 hw2 hi hids
          obtain ⟨g1, g2, -⟩ := sealUnit_spec hH hk hs hb hw2 hw'
          exact ⟨w', hw', by omega, g1⟩))
  exact ⟨t, ht⟩

omit hH hk in
theorem readBlocks_ok (hlay : Layout params n c) (file : Bytes) (l : List Nat) :
    ∃ d, readBlocks params file l = .ok d ∧ ∀ x ∈ d, x.length = c := by
  unfold readBlocks
  refine forEach_total (fun (d : List (List Bytes)) => ∀ x ∈ d, x.length = c) (by simp) ?_
  intro i _ s hP
  obtain ⟨us, h1, h2, -, -⟩ := toUnits_ok (readFile file (i * params.blockPl) params.blockPl)
    params.unitPl c hlay.unit_pos (by rw [readFile_length, hlay.block])
  refine ⟨s ++ [us], by simp only [h1, bind_ok, pure_eq_ok], ?_⟩
  intro x hx
  simp only [List.mem_append, List.mem_singleton] at hx
  rcases hx with h | h
  · exact hP x h
  · rw [h]; exact h2

theorem sealBlock_ok (hlay : Layout params n c) (hS : params.modeS = 0) (hL : params.modeL = 0)
    (hn : LongCountOk n params.cntL) (hc : ShortCountOk c params.cntS) {iv : Bytes} {idxsL idxsS : List (List Nat)}
    (hs : ShortOk idxsS) {file0 : Bytes} {k : Nat} (hkn : k < n) {s : SealState}
    (hinv : SealInv H params p n c file0 k s) :
    ∃ s', sealBlock H params (p : Int) iv n idxsL idxsS k s = .ok s' := by
  obtain ⟨us, hus, husl, huok⟩ := hinv.units k hkn
  have hread : readFile s.file (k * params.blockPl) params.blockPl = blockOf params s.file k := rfl
  obtain ⟨beforeId, hb⟩ : ∃ b : Bytes, (k ≠ 0 → s.ids[k - 1]? = some b) := by
    by_cases hk0 : k = 0
    · exact ⟨[], fun h => absurd hk0 h⟩
    · exact ⟨_, fun _ => hinv.ids (k - 1) (by omega)⟩
  have hdep : ∃ d, sealDependBlocks H params n idxsL s.file s.ids k = .ok d ∧ ∀ x ∈ d, x.length = c := by
    unfold sealDependBlocks
    rw [if_pos hL]
    have hcur : ∃ cur, (if k = 0 then pure []
      else do
        let before ← at! s.ids (k - 1)
        if params.cntL = 0 then longModeRandom H n before k (k / 10 + 1)
        else longModeRandom H n before k params.cntL : R (List Nat)) = .ok cur := by
      split
      · exact ⟨[], rfl⟩
      · rename_i hk0
        rw [at!_eq_ok.mpr (hb hk0), bind_ok]
        split
        · exact longModeRandom_some hH (by omega) _
        · exact longModeRandom_some hH (by omega) _
    obtain ⟨cur, hcur⟩ := hcur
    rw [hcur, bind_ok]
    exact readBlocks_ok hlay s.file cur
  obtain ⟨deps, hdeps, hdl⟩ := hdep
  obtain ⟨r, hr⟩ := sealRoundsLoop_ok hH hk hS hc (iv := iv) hs hdl (s := (us, s.log)) husl huok hb
  unfold sealBlock
  simp only [hread, hus, bind_ok, hdeps, husl, hr, comUnits_eq]
  rw [put!_of_lt (by rw [hinv.ids_len]; exact hkn), bind_ok]
  exact ⟨_, rfl⟩

theorem sealLoop_ok (hlay : Layout params n c) (hS : params.modeS = 0) (hL : params.modeL = 0)
    (hn : LongCountOk n params.cntL) (hc : ShortCountOk c params.cntS) {iv : Bytes} {idxsL idxsS : List (List Nat)}
    (hs : ShortOk idxsS) {file0 : Bytes} (hlen : n * params.blockPl ≤ file0.length) {s0 : SealState}
    (h0 : SealInv H params p n c file0 0 s0) :
    ∃ t, forUp n (fun idx2 s => sealBlock H params (p : Int) iv n idxsL idxsS idx2 s) s0 = .ok t ∧
      SealInv H params p n c file0 n t := by
  refine forUp_total (fun k s => SealInv H params p n c file0 k s) h0 ?_
  intro k hkn s hinv
  obtain ⟨s', hs'⟩ := sealBlock_ok hH hk hlay hS hL hn hc (iv := iv) (idxsL := idxsL) hs hkn hinv
  exact ⟨s', hs', (sealBlock_spec hH hk hlay hs hlen hkn hinv hs').1⟩

end

/-! ### Start of the loop -/

theorem sealInv_zero {H : Bytes → Bytes} {params : PosPara} {p n c : Nat} {file : Bytes}
    (hunits : ∀ i < n, BlockOk params p c file i) :
    SealInv H params p n c file 0 { file := file, ids := List.replicate n [], log := [] } where
  len := rfl
  ids_len := by simp
  ids := fun j hj => absurd hj (by omega)
  tail := fun _ _ => rfl
  units := hunits

/-! ### Padding and compressing -/

/-- The padded form of a list of units. -/
def padUnits (us : List Bytes) : List Bytes := us.map (fun u => u ++ [0])

theorem flatten_drop_take (us : List Bytes) (l k : Nat) (hk : k < us.length) (h : ∀ u ∈ us, u.length = l)
    (rest : Bytes) : readFile (us.flatten ++ rest) (k * l) l = us[k] := by
  induction us generalizing k with
  | nil => simp at hk
  | cons u us ih =>
    have hu : u.length = l := h u (by simp)
    cases k with
    | zero =>
      rw [Nat.zero_mul, readFile_eq_take_drop _ _ _ (by simp; omega)]
      simp only [List.drop_zero, List.flatten_cons, List.append_assoc, List.getElem_cons_zero]
      rw [← hu, List.take_left]
    | succ k =>
      simp only [List.length_cons] at hk
      have := ih k (by omega) (fun v hv => h v (by simp [hv]))
      rw [List.getElem_cons_succ, ← this]
      apply List.ext_getElem?
      intro i
      rw [readFile_getElem?, readFile_getElem?]
      have e : (k + 1) * l = l + k * l := by ring
      have e2 : ((u :: us).flatten ++ rest)[(k + 1) * l + i]? = (us.flatten ++ rest)[k * l + i]? := by
        rw [List.flatten_cons, List.append_assoc, List.getElem?_append_right (by rw [hu, e]; omega)]
        congr 1
        rw [hu, e]; omega
      rw [e2]

theorem copyAndPad_eq {us : List Bytes} {unitL : Nat} (hu : 0 < unitL) (h : ∀ u ∈ us, u.length = unitL) :
    copyAndPad us.flatten (us.length * unitL) unitL = .ok (padUnits us).flatten := by
  unfold copyAndPad
  rw [div!_of_pos hu, bind_ok, Nat.mul_div_cancel _ hu]
  have key : ∀ k, k ≤ us.length → forUp k (fun cnt new =>
      let buf := readFile us.flatten (cnt * unitL) unitL ++ [0]
      pure (new ++ buf)) ([] : Bytes) = .ok (padUnits (us.take k)).flatten := by
    intro k
    induction k with
    | zero => intro _; rfl
    | succ k ih =>
      intro hk
      rw [forUp_succ, ih (by omega), bind_ok]
      have := flatten_drop_take us unitL k (by omega) h []
      rw [List.append_nil] at this
      simp only [this, pure_eq_ok, Except.ok.injEq]
      rw [List.take_succ_eq_append_getElem (by omega)]
      unfold padUnits
      rw [List.map_append, List.flatten_append]
      simp
  rw [key us.length (Nat.le_refl _), List.take_length]

theorem copyAndCompress_eq {us : List Bytes} {unitL : Nat} (hu : 0 < unitL)
    (h : ∀ u ∈ us, u.length = unitL) (rest : Bytes) :
    copyAndCompress ((padUnits us).flatten ++ rest) (us.length * unitL) unitL (unitL + 1)
      = .ok us.flatten := by
  unfold copyAndCompress
  rw [div!_of_pos hu, bind_ok, Nat.mul_div_cancel _ hu]
  have hpl : (padUnits us).length = us.length := by simp [padUnits]
  have hp : ∀ v ∈ padUnits us, v.length = unitL + 1 := by
    intro v hv
    unfold padUnits at hv
    rw [List.mem_map] at hv
    obtain ⟨u, hu, rfl⟩ := hv
    simp [h u hu]
  have key : ∀ k, k ≤ us.length → forUp k (fun cnt new => do
      let buf := readFile ((padUnits us).flatten ++ rest) (cnt * (unitL + 1)) (unitL + 1)
      let part ← slice! buf 0 unitL
      pure (new ++ part)) ([] : Bytes) = .ok (us.take k).flatten := by
    intro k
    induction k with
    | zero => intro _; rfl
    | succ k ih =>
      intro hk
      rw [forUp_succ, ih (by omega), bind_ok]
      have h1 := flatten_drop_take (padUnits us) (unitL + 1) k (by omega) hp rest
      have h2 : (padUnits us)[k]'(by omega) = us[k] ++ [0] := by simp [padUnits]
      have h3 : slice! (us[k] ++ [0]) 0 unitL = .ok us[k] := by
        rw [slice!_eq_ok]
        have := h us[k] (List.getElem_mem _)
        refine ⟨by simp; omega, ?_⟩
        simp only [List.drop_zero, Nat.sub_zero]
        rw [← this, List.take_left]
      simp only [h1, h2, h3, bind_ok, pure_eq_ok, Except.ok.injEq]
      rw [List.take_succ_eq_append_getElem (by omega)]
      simp only [List.flatten_append, List.flatten_cons, List.flatten_nil, List.append_nil]
  rw [key us.length (Nat.le_refl _), List.take_length]

/-- Every block of a padded file consists of residues. -/
theorem padded_blockOk {params : PosPara} {p n c unitL : Nat} (hc : params.blockPl = c * params.unitPl)
    (hul : params.unitPl = unitL + 1) (hp : 256 ^ unitL ≤ p) {us : List Bytes} (hlen : us.length = n * c)
    (h : ∀ u ∈ us, u.length = unitL) {i : Nat} (hi : i < n) (rest : Bytes) :
    BlockOk params p c ((padUnits us).flatten ++ rest) i := by
  have hpl : (padUnits us).length = n * c := by simp [padUnits, hlen]
  have hp' : ∀ v ∈ padUnits us, v.length = params.unitPl ∧ leNat v < p := by
    intro v hv
    unfold padUnits at hv
    rw [List.mem_map] at hv
    obtain ⟨u, hu, rfl⟩ := hv
    have hl := h u hu
    refine ⟨by simp [hl, hul], ?_⟩
    have : leNat (u ++ [0]) = leNat u := by rw [leNat_append]; simp [leNat]
    rw [this]
    have := leNat_lt u
    rw [hl] at this
    omega
  have hic : i * c + c ≤ n * c := block_index hi
  -- the block is the flattening of a slice of the units
  have hb : blockOf params ((padUnits us).flatten ++ rest) i
      = (((padUnits us).drop (i * c)).take c).flatten := by
    unfold blockOf
    have hsplit : (padUnits us).flatten ++ rest = ((padUnits us).take (i * c)).flatten ++
        ((((padUnits us).drop (i * c)).take c).flatten ++
          (((padUnits us).drop (i * c)).drop c).flatten ++ rest) := by
      rw [← List.flatten_append, List.take_append_drop, ← List.append_assoc, ← List.flatten_append,
        List.take_append_drop]
    have hl1 : ((padUnits us).take (i * c)).flatten.length = i * params.blockPl := by
      rw [flatten_length_const _ params.unitPl (fun v hv => (hp' v (List.mem_of_mem_take hv)).1), hc]
      simp only [List.length_take, hpl]
      rw [Nat.min_eq_left (by omega)]
      ring
    have hl2 : (((padUnits us).drop (i * c)).take c).flatten.length = params.blockPl := by
      rw [flatten_length_const _ params.unitPl
        (fun v hv => (hp' v (List.mem_of_mem_drop (List.mem_of_mem_take hv))).1), hc]
      simp only [List.length_take, List.length_drop, hpl]
      rw [Nat.min_eq_left (by omega)]
    rw [hsplit]
    apply List.ext_getElem?
    intro j
    rw [readFile_getElem?]
    by_cases hj : j < params.blockPl
    · rw [if_pos hj, List.getElem?_append_right (by omega), List.append_assoc,
        List.getElem?_append_left (by omega), hl1]
      rw [Nat.add_sub_cancel_left, List.getElem?_eq_getElem (by omega)]
      rfl
    · rw [if_neg hj, List.getElem?_eq_none (by omega)]
  refine ⟨((padUnits us).drop (i * c)).take c, ?_, ?_, ?_⟩
  · rw [hb]
    exact toUnits_flatten _ _ (by omega)
      (fun v hv => (hp' v (List.mem_of_mem_drop (List.mem_of_mem_take hv))).1)
  · simp only [List.length_take, List.length_drop, hpl]
    rw [Nat.min_eq_left (by omega)]
  · intro v hv
    exact hp' v (List.mem_of_mem_drop (List.mem_of_mem_take hv))

/-! ### Static long tables -/

theorem longDepend_lt {index count mode : Nat} {l : List Nat} (h : longDepend index count mode = .ok l) :
    ∀ j ∈ l, j < index := by
  have h2 : ∀ c, longMode2 index c = .ok l → ∀ j ∈ l, j < index := by
    intro c hc j hj
    rcases Nat.lt_or_ge 64 c with h | h
    · rw [longMode2_error index c h] at hc; cases hc
    · rw [longMode2_eq index c h] at hc
      have := Except.ok.inj hc
      rw [← this, List.mem_map] at hj
      obtain ⟨i, hi, rfl⟩ := hj
      simp only [List.mem_filter, List.mem_range, decide_eq_true_eq] at hi
      have := Nat.sub_le (index - 1) (2 ^ i)
      have := Nat.zero_le (2 ^ i)
      omega
  unfold longDepend at h
  split at h
  · rw [longMode1_eq] at h
    intro j hj
    have := Except.ok.inj h
    rw [← this, List.mem_map] at hj
    obtain ⟨i, hi, rfl⟩ := hj
    simp only [List.mem_filter, List.mem_range, decide_eq_true_eq] at hi
    omega
  · split at h
    · exact h2 _ h
    · split at h
      · rw [longMode3_eq] at h
        exact h2 _ h
      · intro j hj
        have := Except.ok.inj h
        rw [← this] at hj
        simp at hj

theorem createLongDepend_longOk {num count mode : Nat} {t : List (List Nat)}
    (h : createLongDepend num count mode = .ok t) : LongOk t := by
  obtain ⟨-, hs⟩ := table_spec h
  intro i l hl
  obtain ⟨hi, rfl⟩ := List.getElem?_eq_some_iff.mp hl
  exact longDepend_lt (hs i hi)

theorem idxsLOf_longOk {params : PosPara} {n : Nat} {t : List (List Nat)}
    (h : idxsLOf params n = .ok t) : LongOk t := by
  unfold idxsLOf at h
  split at h
  · exact createLongDepend_longOk h
  · cases h
    intro i l hl
    simp at hl

end PoS
