import Verif.Proofs.SealTotal
import Verif.Proofs.Unseal
import Verif.Proofs.SlothExact
import Verif.Proofs.Select
import Verif.Spec.Sealing
import Verif.Spec.Storage

/-
`sealFile` computes the blocks of `Sealing.sealedBlocks`.
-/

set_option linter.unusedSectionVars false

namespace PoS

/-! ### Bytes and loops -/

theorem leBytes_length (len v : Nat) : (leBytes len v).length = len := by simp [leBytes]

theorem leBytes_succ (len v : Nat) : leBytes (len + 1) v = UInt8.ofNat (v % 256) :: leBytes len (v / 256) := by
  unfold leBytes
  rw [List.range_succ_eq_map, List.map_cons, List.map_map]
  congr 1
  · simp
  · apply List.map_congr_left
    intro i _
    simp only [Function.comp_def, Nat.succ_eq_add_one, Nat.pow_succ]
    rw [Nat.div_div_eq_div_mul, Nat.mul_comm (256 ^ i)]

theorem leNat_leBytes {len v : Nat} (h : v < 256 ^ len) : leNat (leBytes len v) = v := by
  induction len generalizing v with
  | zero =>
    have : v = 0 := by simpa using h
    subst this; rfl
  | succ len ih =>
    rw [leBytes_succ, leNat, ih (by rw [Nat.pow_succ] at h; omega)]
    rw [UInt8.toNat_ofNat']
    omega

theorem eq_leBytes {b : Bytes} {len v : Nat} (hl : b.length = len) (hv : leNat b = v) : b = leBytes len v := by
  subst hl hv
  apply leNat_inj
  · rw [leBytes_length]
  · rw [leNat_leBytes (leNat_lt b)]

theorem sortDedup_eq_sort (l : List Nat) : sortDedup l = l.toFinset.sort (· ≤ ·) := by
  apply List.Perm.eq_of_pairwise (le := (· ≤ ·))
  · intro a b _ _ h1 h2; omega
  · exact (sortDedup_sorted l).imp (fun h => le_of_lt h)
  · exact Finset.pairwise_sort _ _
  · apply (List.perm_ext_iff_of_nodup ?_ ?_).mpr
    · intro a
      rw [mem_sortDedup, Finset.mem_sort, List.mem_toFinset]
    · exact (sortDedup_sorted l).imp (fun h => ne_of_lt h)
    · exact Finset.sort_nodup _ _

theorem forEach_gather {α : Type} {l : List α} {g : α → R Bytes} {g' : α → Bytes}
    (h : ∀ x ∈ l, g x = .ok (g' x)) (acc : Bytes) :
    forEach l (fun x res => do
      let u ← g x
      pure (res ++ u)) acc = .ok (acc ++ (l.map g').flatten) := by
  induction l generalizing acc with
  | nil => simp [forEach]
  | cons x l ih =>
    rw [forEach_cons, h x (by simp), bind_ok, pure_eq_ok, bind_ok, ih (fun y hy => h y (by simp [hy]))]
    simp

theorem forEach_collect_map {α β : Type} {l : List α} {g : α → R β} {g' : α → β}
    (h : ∀ x ∈ l, g x = .ok (g' x)) (acc : List β) :
    forEach l (fun x res => do
      let u ← g x
      pure (res ++ [u])) acc = .ok (acc ++ l.map g') := by
  induction l generalizing acc with
  | nil => simp [forEach]
  | cons x l ih =>
    rw [forEach_cons, h x (by simp), bind_ok, pure_eq_ok, bind_ok, ih (fun y hy => h y (by simp [hy]))]
    simp

/-- A loop that follows a pure fold on a projection of its state. -/
theorem forUp_fold {σ β : Type} {n : Nat} {f : Nat → σ → R σ} {s : σ} (π : σ → β) (g : β → Nat → β)
    (P : σ → Prop) (h0 : P s)
    (step : ∀ k < n, ∀ s, P s → ∃ s', f k s = .ok s' ∧ π s' = g (π s) k ∧ P s') :
    ∃ t, forUp n f s = .ok t ∧ π t = (List.range n).foldl g (π s) ∧ P t := by
  induction n with
  | zero => exact ⟨s, rfl, rfl, h0⟩
  | succ n ih =>
    obtain ⟨t, h1, h2, h3⟩ := ih (fun k hk => step k (by omega))
    obtain ⟨t', g1, g2, g3⟩ := step n (by omega) t h3
    refine ⟨t', ?_, ?_, g3⟩
    · rw [forUp_succ, h1, bind_ok, g1]
    · rw [List.range_succ, List.foldl_append, ← h2]
      exact g2

theorem foldl_const {β : Type} (F : β → β) (n : Nat) (b : β) :
    (List.range n).foldl (fun b _ => F b) b = F^[n] b := by
  induction n with
  | zero => rfl
  | succ n ih =>
    rw [List.range_succ, List.foldl_append, ih, Function.iterate_succ_apply']
    rfl

theorem getD_of_at {α : Type} {l : List α} {i : Nat} {d : α} (h : i < l.length) : at! l i = .ok (l.getD i d) := by
  rw [at!_of_lt h, List.getD_eq_getElem?_getD, List.getElem?_eq_getElem h]
  rfl

/-! ### One unit -/

/-- The description that belongs to a call of `seal` with a choice of dependencies. -/
def sealingOf (H : Bytes → Bytes) (params : PosPara) (p c : Nat) (iv : Bytes)
    (long short : Bytes → Nat → List Nat) : Sealing where
  H := H
  enc := encode p params.vdeRounds
  p := p
  unitPl := params.unitPl
  c := c
  rounds := params.sealRounds
  iv := iv
  long := long
  short := short

/-- The code chooses the units of `short`. -/
def ShortIs (H : Bytes → Bytes) (params : PosPara) (c : Nat) (idxsS : List (List Nat))
    (short : Bytes → Nat → List Nat) : Prop :=
  ∀ (deps : List (List Bytes)), (∀ d ∈ deps, d.length = c) → ∀ cur : List Bytes, cur.length = c → ∀ j < c,
    sealDependData H params idxsS deps cur c j =
      .ok ((deps.map (fun d => d.getD j [])).flatten ++
        ((short (if j = 0 then [] else cur.getD (j - 1) []) j).map (fun i => cur.getD i [])).flatten)

/-- For block `k` the code chooses the blocks of `long`, which are earlier ones. -/
def LongAt (H : Bytes → Bytes) (params : PosPara) (n : Nat) (idxsL : List (List Nat))
    (long : Bytes → Nat → List Nat) (k : Nat) : Prop :=
  ∀ id : Bytes, (∀ i ∈ long id k, i < k) ∧ ∀ (file : Bytes) (ids : List Bytes),
    (k ≠ 0 → ids[k - 1]? = some id) →
    sealDependBlocks H params n idxsL file ids k = readBlocks params file (long id k)

/-- The code chooses the blocks of `long`, which are earlier ones. -/
def LongIs (H : Bytes → Bytes) (params : PosPara) (n : Nat) (idxsL : List (List Nat))
    (long : Bytes → Nat → List Nat) : Prop :=
  ∀ k < n, LongAt H params n idxsL long k

section

variable {H : Bytes → Bytes} (hH : ∀ x, (H x).length = 32) {params : PosPara} {p n c : Nat}
  (hk : KeyOk p params.unitPl) (hlay : Layout params n c) (hS : params.modeS = 0) (hL : params.modeL = 0)
  (hn : LongCountOk n params.cntL) (hc0 : 0 < c) (hc : ShortCountOk c params.cntS) {iv : Bytes} {long short : Bytes → Nat → List Nat}
  {idxsL idxsS : List (List Nat)} (hshort : ShortIs H params c idxsS short) (hlong : LongIs H params n idxsL long)

theorem vde_eq {p l t : Nat} {mode : String} (hp : p.Prime) (h34 : p % 4 = 3) {r : Bytes} (hr : leNat r < p)
    (hfit : p ≤ 256 ^ l) :
    Rug.vde r (p : Int) t mode l = leBytes l (encode p t (leNat r)) := by
  rw [← sloth_encode hp h34 hr t]
  have h := rug_sloth_natAbs_lt hp h34 t (leNat r) hr
  obtain ⟨y, g1, g2, g3⟩ := pad_spec (n := (Rug.sloth (leNat r : Int) (p : Int) t).natAbs) (l := l) (by omega)
  have hv : Rug.vde r (p : Int) t mode l = y := by
    unfold Rug.vde
    simp only [ite_self]
    exact g1
  rw [hv]
  exact eq_leBytes g2 g3

/-- The first half of the dependency data. -/
theorem gatherDeps {c : Nat} {deps : List (List Bytes)} (hdeps : ∀ d ∈ deps, d.length = c) {j : Nat} (hj : j < c) :
    forUp deps.length (fun i res => do
      let b ← at! deps i
      let u ← at! b j
      pure (res ++ u)) ([] : Bytes) = .ok ((deps.map (fun d => d.getD j [])).flatten) := by
  rw [forUp_at_eq_forEach deps (fun b res => do
    let u ← at! b j
    pure (res ++ u)) []]
  exact forEach_gather (g := fun b => at! b j) (fun d hd => getD_of_at (by rw [hdeps d hd]; exact hj)) []

/-- The second half. -/
theorem gatherUnits {c : Nat} {cur : List Bytes} (hcur : cur.length = c) {l : List Nat} (hl : ∀ i ∈ l, i < c) (res : Bytes) :
    forEach l (fun idx res => do
      let u ← at! cur idx
      pure (res ++ u)) res = .ok (res ++ (l.map (fun i => cur.getD i [])).flatten) :=
  forEach_gather (g := fun i => at! cur i) (g' := fun i => cur.getD i [])
    (fun i hi => getD_of_at (by rw [hcur]; exact hl i hi)) res

theorem hashShort_lt {H : Bytes → Bytes} {c cntS : Nat} (hc0 : 0 < c) {seed : Bytes} {j : Nat} :
    ∀ i ∈ hashShort H c cntS seed j, i < c := by
  intro i hi
  unfold hashShort at hi
  rw [Finset.mem_sort, List.mem_toFinset] at hi
  have := List.mem_of_mem_take hi
  rw [List.mem_filter, List.mem_map] at this
  obtain ⟨⟨a, -, rfl⟩, -⟩ := this
  exact Nat.mod_lt _ hc0

include hH hS hc0 hc in
/-- Hash-chosen units. -/
theorem shortIs_hash : ShortIs H params c idxsS (hashShort H c params.cntS) := by
  intro deps hdeps cur hcur j hj
  unfold sealDependData
  rw [gatherDeps hdeps hj, bind_ok, if_neg (by simp [hS])]
  have h2 : (if j = 0 then shortDependRandom H c [] j params.cntS
      else do
        let before ← at! cur (j - 1)
        shortDependRandom H c before j params.cntS : R (List Nat)) =
      .ok (hashShort H c params.cntS (if j = 0 then [] else cur.getD (j - 1) []) j) := by
    by_cases h0 : j = 0
    · rw [if_pos h0, if_pos h0, shortDependRandom_eq hH hc0 hc, sortDedup_eq_sort]
      rfl
    · rw [if_neg h0, if_neg h0, getD_of_at (d := []) (by omega), bind_ok, shortDependRandom_eq hH hc0 hc,
        sortDedup_eq_sort]
      rfl
  rw [h2, bind_ok]
  exact gatherUnits hcur (hashShort_lt hc0) _

/-- Units from a table. -/
theorem shortIs_table (hS : params.modeS ≠ 0) {f : Nat → List Nat} (ht : ∀ j < c, idxsS[j]? = some (f j))
    (hf : ∀ j < c, ∀ i ∈ f j, i < c) : ShortIs H params c idxsS (fun _ => f) := by
  intro deps hdeps cur hcur j hj
  unfold sealDependData
  rw [gatherDeps hdeps hj, bind_ok, if_pos hS, at!_eq_ok.mpr (ht j hj), bind_ok]
  exact gatherUnits hcur (hf j hj) _

include hH hL in
/-- Hash-chosen blocks, for one block. -/
theorem longAt_hash {k : Nat} (hn : n ≤ 65536 ∨ (if params.cntL = 0 then k / 10 + 1 else params.cntL) ≤ 5) :
    LongAt H params n idxsL (hashLong H n params.cntL) k := by
  intro id
  constructor
  · intro i hi
    unfold hashLong at hi
    by_cases hk0 : k = 0
    · rw [if_pos hk0] at hi; simp at hi
    · rw [if_neg hk0] at hi
      simp only [Finset.mem_sort, List.mem_toFinset] at hi
      have := List.mem_of_mem_take hi
      rw [List.mem_map] at this
      obtain ⟨a, -, rfl⟩ := this
      exact Nat.mod_lt _ (by omega)
  · intro file ids hid
    unfold sealDependBlocks
    rw [if_pos hL]
    by_cases hk0 : k = 0
    · rw [if_pos hk0, pure_eq_ok, bind_ok]
      unfold hashLong
      rw [if_pos hk0]
    · rw [if_neg hk0, at!_eq_ok.mpr (hid hk0), bind_ok]
      have hcur : (if params.cntL = 0 then longModeRandom H n id k (k / 10 + 1)
          else longModeRandom H n id k params.cntL) = .ok (hashLong H n params.cntL id k) := by
        unfold hashLong
        rw [if_neg hk0]
        by_cases hz : params.cntL = 0
        · simp only [if_pos hz] at hn ⊢
          rw [longModeRandom_eq hH hn (by omega), sortDedup_eq_sort]
        · simp only [if_neg hz] at hn ⊢
          rw [longModeRandom_eq hH hn (by omega), sortDedup_eq_sort]
      rw [hcur, bind_ok]

include hH hL hn in
/-- Hash-chosen blocks. -/
theorem longIs_hash : LongIs H params n idxsL (hashLong H n params.cntL) := by
  intro k hk
  refine longAt_hash hH hL ?_
  rcases hn with h | ⟨h1, h2⟩
  · exact Or.inl h
  · right
    rw [if_neg (by omega)]
    exact h2

/-- Blocks from a table. -/
theorem longIs_table (hL : params.modeL ≠ 0) {f : Nat → List Nat} (ht : ∀ k < n, idxsL[k]? = some (f k))
    (hf : ∀ k < n, ∀ i ∈ f k, i < k) : LongIs H params n idxsL (fun _ => f) := by
  intro k hk id
  refine ⟨hf k hk, fun file ids _ => ?_⟩
  unfold sealDependBlocks
  rw [if_neg hL, at!_eq_ok.mpr (ht k hk), bind_ok]

include hH hk in
/-- One unit, when the units it refers to are those of `short`. -/
theorem sealUnit_eq_of {ids : List Bytes} {deps : List (List Bytes)} {chain : Bytes}
    {k : Nat} (hchain : if k = 0 then chain = iv else ids[k - 1]? = some chain)
    (hdeps : ∀ d ∈ deps, d.length = c) {s : List Bytes × List Nat} (hcur : s.1.length = c)
    (hu : UnitsOk p params.unitPl s.1) {j : Nat} (hj : j < c)
    (hloc : sealDependData H params idxsS deps s.1 c j =
      .ok ((deps.map (fun d => d.getD j [])).flatten ++
        ((short (if j = 0 then [] else s.1.getD (j - 1) []) j).map (fun i => s.1.getD i [])).flatten)) :
    ∃ s', sealUnit H params (p : Int) iv idxsS ids deps c k j s = .ok s' ∧
      s'.1 = (sealingOf H params p c iv long short).stepUnit deps chain s.1 j ∧
      (s'.1.length = c ∧ UnitsOk p params.unitPl s'.1) ∧
      s'.2 = s.2 ++ [(sealingOf H params p c iv long short).encoderInput deps chain s.1 j] := by
  obtain ⟨cur, log⟩ := s
  simp only at hcur hu hloc
  unfold sealUnit
  simp only
  rw [hloc, bind_ok]
  generalize hdd : (deps.map (fun d => d.getD j [])).flatten ++
        ((short (if j = 0 then [] else cur.getD (j - 1) []) j).map
          (fun i => cur.getD i [])).flatten = dd
  have h2 : (if j = 0 then
      if k = 0 then pure (dd ++ iv)
      else do
        let before ← at! ids (k - 1)
        pure (dd ++ before)
    else pure dd : R Bytes) = .ok ((sealingOf H params p c iv long short).maskInput deps chain cur j) := by
    unfold Sealing.maskInput
    rw [show (sealingOf H params p c iv long short).short = short from rfl, hdd]
    by_cases h0 : j = 0
    · rw [if_pos h0, if_pos h0]
      by_cases hk0 : k = 0
      · rw [if_pos hk0] at hchain ⊢
        rw [hchain]; rfl
      · rw [if_neg hk0] at hchain ⊢
        rw [at!_eq_ok.mpr hchain, bind_ok]; rfl
    · rw [if_neg h0, if_neg h0, List.append_nil]; rfl
  rw [h2, bind_ok]
  generalize hm : (sealingOf H params p c iv long short).maskInput deps chain cur j = m
  have hjl : j < cur.length := by omega
  rw [getD_of_at (d := []) hjl, bind_ok]
  have humem : cur.getD j [] ∈ cur := by
    rw [List.getD_eq_getElem?_getD, List.getElem?_eq_getElem hjl]
    exact List.getElem_mem hjl
  obtain ⟨hul, hup⟩ := hu _ humem
  have hp0 : 0 < p := hk.prime.pos
  obtain ⟨r, hr, hrl, hrv⟩ := modadd_spec (u := cur.getD j []) (h := H m) hp0 (by rw [hul]; exact hk.fits)
  have hrp : leNat r < p := by rw [hrv]; exact Nat.mod_lt _ hp0
  rw [hr, bind_ok, put!_of_lt hjl, bind_ok]
  have hvl := rug_vde_length hk.prime hk.mod4 (t := params.vdeRounds) (mode := params.vdeMode) hrp hk.fits
  refine ⟨_, rfl, ?_, ⟨by simpa using hcur, hu.set hvl⟩, ?_⟩
  · unfold Sealing.stepUnit
    rw [hm, vde_eq hk.prime hk.mod4 hrp hk.fits, hrv]
    rfl
  · unfold Sealing.encoderInput
    rw [hm, hrv]
    rfl

include hH hk hshort in
theorem sealUnit_eq {ids : List Bytes} {deps : List (List Bytes)} {chain : Bytes}
    {k : Nat} (hchain : if k = 0 then chain = iv else ids[k - 1]? = some chain)
    (hdeps : ∀ d ∈ deps, d.length = c) {s : List Bytes × List Nat} (hcur : s.1.length = c)
    (hu : UnitsOk p params.unitPl s.1) {j : Nat} (hj : j < c) :
    ∃ s', sealUnit H params (p : Int) iv idxsS ids deps c k j s = .ok s' ∧
      s'.1 = (sealingOf H params p c iv long short).stepUnit deps chain s.1 j ∧
      (s'.1.length = c ∧ UnitsOk p params.unitPl s'.1) ∧
      s'.2 = s.2 ++ [(sealingOf H params p c iv long short).encoderInput deps chain s.1 j] :=
  sealUnit_eq_of hH hk hchain hdeps hcur hu hj (hshort deps hdeps s.1 hcur j hj)

/-- Collecting values along a fold. -/
theorem foldl_collect {β : Type} (g : β → Nat → β) (h : β → Nat → Nat) (n : Nat) (b : β) (l : List Nat) :
    (List.range n).foldl (fun (s : β × List Nat) j => (g s.1 j, s.2 ++ [h s.1 j])) (b, l) =
      ((List.range n).foldl g b, l ++ (List.range n).map (fun i => h ((List.range i).foldl g b) i)) := by
  induction n with
  | zero => simp
  | succ n ih =>
    rw [List.range_succ, List.foldl_append, ih, List.foldl_append, List.map_append]
    simp only [List.foldl_cons, List.foldl_nil, List.map_cons, List.map_nil, List.append_assoc]

theorem foldl_collect_rounds {β : Type} (F : β → β) (h : β → List Nat) (n : Nat) (b : β) (l : List Nat) :
    (List.range n).foldl (fun (s : β × List Nat) _ => (F s.1, s.2 ++ h s.1)) (b, l) =
      (F^[n] b, l ++ (List.range n).flatMap (fun r => h (F^[r] b))) := by
  induction n with
  | zero => simp
  | succ n ih =>
    rw [List.range_succ, List.foldl_append, ih, Function.iterate_succ_apply']
    simp only [List.foldl_cons, List.foldl_nil, List.flatMap_append, List.flatMap_cons, List.flatMap_nil, List.append_nil,
      List.append_assoc]

include hH hk hshort in
theorem sealRoundsLoop_eq {ids : List Bytes} {deps : List (List Bytes)}
    {chain : Bytes} {k : Nat} (hchain : if k = 0 then chain = iv else ids[k - 1]? = some chain)
    (hdeps : ∀ d ∈ deps, d.length = c) {s : List Bytes × List Nat} (hcur : s.1.length = c)
    (hu : UnitsOk p params.unitPl s.1) :
    ∃ s', sealRoundsLoop H params (p : Int) iv idxsS ids deps c k s = .ok s' ∧
      s'.1 = (sealingOf H params p c iv long short).sealOne deps chain s.1 ∧
      (s'.1.length = c ∧ UnitsOk p params.unitPl s'.1) ∧
      s'.2 = s.2 ++ (sealingOf H params p c iv long short).encoderInputs deps chain s.1 := by
  set S := sealingOf H params p c iv long short with hSdef
  unfold sealRoundsLoop
  obtain ⟨t, h1, h2, h3⟩ := forUp_fold (n := params.sealRounds) (s := s) (f := fun _ s =>
    forUp c (fun idx1 s => sealUnit H params (p : Int) iv idxsS ids deps c k idx1 s) s)
    (π := fun s : List Bytes × List Nat => s)
    (g := fun s _ => ((List.range c).foldl (S.stepUnit deps chain) s.1,
      s.2 ++ (List.range c).map (fun i => S.encoderInput deps chain ((List.range i).foldl (S.stepUnit deps chain) s.1) i)))
    (P := fun s => s.1.length = c ∧ UnitsOk p params.unitPl s.1) ⟨hcur, hu⟩ (by
      intro _ _ s hs
      have := forUp_fold (n := c) (s := s) (f := fun idx1 s => sealUnit H params (p : Int) iv idxsS ids deps c k idx1 s)
        (π := fun s : List Bytes × List Nat => s)
        (g := fun s j => (S.stepUnit deps chain s.1 j, s.2 ++ [S.encoderInput deps chain s.1 j]))
        (P := fun s => s.1.length = c ∧ UnitsOk p params.unitPl s.1) hs (by
          intro j hj s hs
          obtain ⟨s', g1, g2, g3, g4⟩ := sealUnit_eq hH hk (iv := iv) (long := long) hshort hchain hdeps hs.1 hs.2 hj
          exact ⟨s', g1, Prod.ext g2 g4, g3⟩)
      obtain ⟨t, e1, e2, e3⟩ := this
      refine ⟨t, e1, ?_, e3⟩
      rw [e2]
      obtain ⟨b, l⟩ := s
      exact foldl_collect _ (S.encoderInput deps chain) c b l)
  obtain ⟨b, l⟩ := s
  have e := foldl_collect_rounds (fun b => (List.range c).foldl (S.stepUnit deps chain) b)
    (fun b => (List.range c).map (fun i => S.encoderInput deps chain ((List.range i).foldl (S.stepUnit deps chain) b) i))
    params.sealRounds b l
  have h2 : t = _ := h2
  rw [e] at h2
  refine ⟨t, h1, ?_, h3, ?_⟩
  · rw [h2]; rfl
  · rw [h2]; rfl

/-- The units of block `k` of a file. -/
def plainUnits (params : PosPara) (c : Nat) (file : Bytes) (k : Nat) : List Bytes :=
  (List.range c).map (fun j => readFile file ((k * c + j) * params.unitPl) params.unitPl)

theorem toUnits_plain {params : PosPara} {n c : Nat} (hlay : Layout params n c) (file : Bytes) (k : Nat) :
    toUnits (readFile file (k * params.blockPl) params.blockPl) params.unitPl =
      .ok (plainUnits params c file k) := by
  obtain ⟨us, h1, h2, h3, h4⟩ := toUnits_ok (readFile file (k * params.blockPl) params.blockPl)
    params.unitPl c hlay.unit_pos (by rw [readFile_length, hlay.block])
  rw [h1]
  congr 1
  apply List.ext_getElem
  · simp [plainUnits, h2]
  · intro j hj1 hj2
    have hjc : j < c := by omega
    have := flatten_drop_take us params.unitPl j hj1 h3 []
    rw [List.append_nil, h4] at this
    rw [← this]
    have hpl : (plainUnits params c file k)[j] = readFile file ((k * c + j) * params.unitPl) params.unitPl := by
      simp [plainUnits]
    rw [hpl, readFile_readFile _ _ _ _ _ (by
      rw [hlay.block]
      have : (j + 1) * params.unitPl ≤ c * params.unitPl := Nat.mul_le_mul_right _ hjc
      rw [Nat.add_mul, Nat.one_mul] at this
      exact this)]
    rw [hlay.block, Nat.add_mul, Nat.mul_assoc]

theorem getD_append_lt {α : Type} (l m : List α) (d : α) {j : Nat} (h : j < l.length) :
    (l ++ m).getD j d = l.getD j d := by
  rw [List.getD_eq_getElem?_getD, List.getD_eq_getElem?_getD, List.getElem?_append_left h]

theorem sealedBlocks_length (S : Sealing) (plain : Nat → List Bytes) (k : Nat) :
    (S.sealedBlocks plain k).length = k := by
  induction k with
  | zero => rfl
  | succ k ih => simp [Sealing.sealedBlocks, ih]

theorem sealedBlocks_getD (S : Sealing) (plain : Nat → List Bytes) {j k m : Nat} (hj : j < k) (hm : k ≤ m) :
    (S.sealedBlocks plain m).getD j [] = (S.sealedBlocks plain k).getD j [] := by
  induction m with
  | zero => omega
  | succ m ih =>
    rcases Nat.lt_or_ge k (m + 1) with h | h
    · rw [← ih (by omega)]
      rw [show S.sealedBlocks plain (m + 1) = S.sealedBlocks plain m ++ _ from rfl,
        getD_append_lt _ _ _ (by rw [sealedBlocks_length]; omega)]
    · rw [show k = m + 1 by omega]

/-- What is true after `k` blocks. -/
structure ExactInv (S : Sealing) (n : Nat) (params : PosPara) (file0 : Bytes) (k : Nat) (s : SealState) : Prop where
  len : s.file.length = file0.length
  ids_len : s.ids.length = n
  blocks : ∀ j < k, blockOf params s.file j = ((S.sealedBlocks (plainUnits params S.c file0) k).getD j []).flatten
  shape : ∀ j < k, ((S.sealedBlocks (plainUnits params S.c file0) k).getD j []).length = S.c ∧
    UnitsOk S.p params.unitPl ((S.sealedBlocks (plainUnits params S.c file0) k).getD j [])
  ids : ∀ j < k, s.ids[j]? = some (S.H ((S.sealedBlocks (plainUnits params S.c file0) k).getD j []).flatten)
  tail : ∀ i, k * params.blockPl ≤ i → s.file[i]? = file0[i]?
  log : s.log = S.allEncoderInputs (plainUnits params S.c file0) k

include hH hk hlay in
/-- One block, when its rounds either compute the described block or panic. -/
theorem sealBlock_cases {file0 : Bytes} (hlen : n * params.blockPl ≤ file0.length)
    (hu : ∀ i < n, BlockOk params p c file0 i) {k : Nat} (hkn : k < n) (hlong : LongAt H params n idxsL long k)
    {s : SealState} (hinv : ExactInv (sealingOf H params p c iv long short) n params file0 k s)
    {P : Prop} {e : Panic}
    (hrounds : ∀ deps chain, deps = (sealingOf H params p c iv long short).dependencies
        ((sealingOf H params p c iv long short).sealedBlocks (plainUnits params c file0) k) k →
      chain = (sealingOf H params p c iv long short).chaining
        ((sealingOf H params p c iv long short).sealedBlocks (plainUnits params c file0) k) k →
      (if k = 0 then chain = iv else s.ids[k - 1]? = some chain) → (∀ d ∈ deps, d.length = c) →
      UnitsOk p params.unitPl (plainUnits params c file0 k) →
      (P ∧ ∃ s', sealRoundsLoop H params (p : Int) iv idxsS s.ids deps c k (plainUnits params c file0 k, s.log) = .ok s' ∧
        s'.1 = (sealingOf H params p c iv long short).sealOne deps chain (plainUnits params c file0 k) ∧
        (s'.1.length = c ∧ UnitsOk p params.unitPl s'.1) ∧
        s'.2 = s.log ++ (sealingOf H params p c iv long short).encoderInputs deps chain (plainUnits params c file0 k)) ∨
      (¬ P ∧ sealRoundsLoop H params (p : Int) iv idxsS s.ids deps c k (plainUnits params c file0 k, s.log) = .error e)) :
    (P ∧ ∃ s', sealBlock H params (p : Int) iv n idxsL idxsS k s = .ok s' ∧
      ExactInv (sealingOf H params p c iv long short) n params file0 (k + 1) s') ∨
    (¬ P ∧ sealBlock H params (p : Int) iv n idxsL idxsS k s = .error e) := by
  set S := sealingOf H params p c iv long short with hSdef
  set done := S.sealedBlocks (plainUnits params S.c file0) k with hdone
  have hSc : S.c = c := rfl
  have hb1 : (k + 1) * params.blockPl ≤ n * params.blockPl := Nat.mul_le_mul_right _ hkn
  have hb2 : (k + 1) * params.blockPl = k * params.blockPl + params.blockPl := by rw [Nat.add_mul, Nat.one_mul]
  -- the block as read
  have hread : readFile s.file (k * params.blockPl) params.blockPl =
      readFile file0 (k * params.blockPl) params.blockPl :=
    readFile_congr (fun i h1 _ => hinv.tail i h1)
  have hplain := toUnits_plain hlay file0 k
  obtain ⟨us, hus, husl, husok⟩ := hu k hkn
  have hus' : us = plainUnits params c file0 k := by
    have : toUnits (blockOf params file0 k) params.unitPl = .ok (plainUnits params c file0 k) := hplain
    rw [hus] at this
    exact Except.ok.inj this
  subst hus'
  -- the dependency blocks
  set id := S.H (done.getD (k - 1) []).flatten with hid
  obtain ⟨hlt, hsel⟩ := hlong id
  have hdepsEq : sealDependBlocks H params n idxsL s.file s.ids k =
      .ok ((S.long id k).map (fun i => done.getD i [])) := by
    rw [hsel s.file s.ids (fun hk0 => by rw [hinv.ids (k - 1) (by omega)])]
    unfold readBlocks
    have := forEach_collect_map (l := S.long id k) (g := fun i => toUnits
      (readFile s.file (i * params.blockPl) params.blockPl) params.unitPl)
      (g' := fun i => done.getD i []) (by
        intro i hi
        have hik : i < k := hlt i hi
        have h1 := hinv.blocks i hik
        unfold blockOf at h1
        rw [h1]
        exact toUnits_flatten _ _ hlay.unit_pos (fun u hu => ((hinv.shape i hik).2 u hu).1)) []
    rw [List.nil_append] at this
    exact this
  set deps := (S.long id k).map (fun i => done.getD i []) with hdepsdef
  have hdeps : ∀ d ∈ deps, d.length = c := by
    intro d hd
    rw [hdepsdef, List.mem_map] at hd
    obtain ⟨i, hi, rfl⟩ := hd
    exact (hinv.shape i (hlt i hi)).1
  set chain := (if k = 0 then S.iv else id) with hchaindef
  have hchain : if k = 0 then chain = iv else s.ids[k - 1]? = some chain := by
    split
    · next h => rw [hchaindef, if_pos h]; rfl
    · next h => rw [hchaindef, if_neg h]; exact hinv.ids (k - 1) (by omega)
  rcases hrounds deps chain rfl rfl hchain hdeps husok with ⟨hP, hrr⟩ | ⟨hP, hrr⟩
  swap
  · refine Or.inr ⟨hP, ?_⟩
    unfold sealBlock
    simp only
    rw [hread, hplain, bind_ok]
    rw [show (plainUnits params c file0 k).length = c from husl, hdepsEq, bind_ok, hrr, bind_error]
  obtain ⟨r, hr1, hr2, ⟨hr3, hr4⟩, hr5⟩ := hrr
  refine Or.inl ⟨hP, ?_⟩
  have hout : r.1.flatten.length = params.blockPl := by
    rw [flatten_length_const r.1 params.unitPl (fun u hu => (hr4 u hu).1), hr3, hlay.block]
  have hnew : S.sealedBlocks (plainUnits params S.c file0) (k + 1) = done ++ [r.1] := by
    rw [hr2]; rfl
  have hdl : done.length = k := sealedBlocks_length _ _ _
  have hoff : k * params.blockPl + r.1.flatten.length ≤ s.file.length := by
    rw [hout, hinv.len]; omega
  refine ⟨{ file := writeAt s.file (k * params.blockPl) r.1.flatten, ids := s.ids.set k (H r.1.flatten), log := r.2 },
    ?_, ?_⟩
  · unfold sealBlock
    simp only
    rw [hread, hplain, bind_ok]
    rw [show (plainUnits params c file0 k).length = c from husl, hdepsEq, bind_ok, hr1, bind_ok, comUnits_eq, bind_ok,
      put!_of_lt (by rw [hinv.ids_len]; exact hkn), bind_ok]
    rfl
  · have hget : ∀ j < k, (done ++ [r.1]).getD j [] = done.getD j [] := fun j hj =>
      getD_append_lt _ _ _ (by omega)
    have hlast : (done ++ [r.1]).getD k [] = r.1 := by
      rw [List.getD_eq_getElem?_getD, List.getElem?_append_right (by omega), hdl, Nat.sub_self]; rfl
    refine ⟨?_, ?_, ?_, ?_, ?_, ?_, ?_⟩
    · rw [writeAt_length _ _ _ hoff]; exact hinv.len
    · rw [List.length_set]; exact hinv.ids_len
    · intro j hj
      rw [hnew]
      unfold blockOf
      rcases Nat.lt_or_ge j k with h | h
      · rw [hget j h, readFile_writeAt_disjoint _ _ _ _ _ (by omega) (Or.inl (block_index h))]
        exact hinv.blocks j h
      · have h1 := readFile_writeAt_same s.file r.1.flatten (k * params.blockPl) (by omega)
        rw [hout] at h1
        rw [show j = k by omega, hlast]
        exact h1
    · intro j hj
      rw [hnew]
      rcases Nat.lt_or_ge j k with h | h
      · rw [hget j h]; exact hinv.shape j h
      · rw [show j = k by omega, hlast]; exact ⟨hr3, hr4⟩
    · intro j hj
      rw [hnew]
      rcases Nat.lt_or_ge j k with h | h
      · rw [hget j h, List.getElem?_set_ne (by omega)]; exact hinv.ids j h
      · rw [show j = k by omega, hlast, List.getElem?_set_self (by rw [hinv.ids_len]; exact hkn)]; rfl
    · intro i hi
      rw [writeAt_getElem? _ _ _ _ (by omega), if_neg (by rw [hout]; omega)]
      exact hinv.tail i (by omega)
    · show r.2 = _
      rw [hr5, hinv.log]
      unfold Sealing.allEncoderInputs
      rw [List.range_succ, List.flatMap_append, List.flatMap_cons, List.flatMap_nil, List.append_nil]
      rfl

include hH hk hlay hshort in
theorem sealBlock_exact {file0 : Bytes} (hlen : n * params.blockPl ≤ file0.length)
    (hu : ∀ i < n, BlockOk params p c file0 i) {k : Nat} (hkn : k < n) (hlong : LongAt H params n idxsL long k)
    {s : SealState} (hinv : ExactInv (sealingOf H params p c iv long short) n params file0 k s) :
    ∃ s', sealBlock H params (p : Int) iv n idxsL idxsS k s = .ok s' ∧
      ExactInv (sealingOf H params p c iv long short) n params file0 (k + 1) s' := by
  rcases sealBlock_cases hH hk hlay (idxsS := idxsS) hlen hu hkn hlong hinv (P := True) (e := .index)
    (fun deps chain _ _ hchain hdeps husok => Or.inl ⟨trivial, sealRoundsLoop_eq hH hk (iv := iv) (long := long) hshort
      (s := (plainUnits params c file0 k, s.log)) hchain hdeps (by simp [plainUnits]) husok⟩) with ⟨-, h⟩ | ⟨h, -⟩
  · exact h
  · exact absurd trivial h

include hH hk hlay hshort in
theorem sealLoop_exact_upTo {file0 : Bytes} (hlen : n * params.blockPl ≤ file0.length)
    (hu : ∀ i < n, BlockOk params p c file0 i) {m : Nat} (hm : m ≤ n)
    (hlong : ∀ k < m, LongAt H params n idxsL long k) :
    ∃ s', forUp m (fun idx2 s => sealBlock H params (p : Int) iv n idxsL idxsS idx2 s)
        { file := file0, ids := List.replicate n [], log := [] } = .ok s' ∧
      ExactInv (sealingOf H params p c iv long short) n params file0 m s' := by
  refine forUp_total (fun k s => ExactInv (sealingOf H params p c iv long short) n params file0 k s) ?_ ?_
  · exact ⟨rfl, List.length_replicate, fun j hj => absurd hj (by omega), fun j hj => absurd hj (by omega),
      fun j hj => absurd hj (by omega), fun _ _ => rfl, rfl⟩
  · intro k hk' s hs
    exact sealBlock_exact hH hk hlay hshort hlen hu (by omega) (hlong k hk') hs

include hH hk hlay hshort hlong in
theorem sealLoop_exact {file0 : Bytes} (hlen : n * params.blockPl ≤ file0.length)
    (hu : ∀ i < n, BlockOk params p c file0 i) {m : Nat} (hm : m ≤ n) :
    ∃ s', forUp m (fun idx2 s => sealBlock H params (p : Int) iv n idxsL idxsS idx2 s)
        { file := file0, ids := List.replicate n [], log := [] } = .ok s' ∧
      ExactInv (sealingOf H params p c iv long short) n params file0 m s' :=
  sealLoop_exact_upTo hH hk hlay hshort hlen hu hm (fun k hk' => hlong k (by omega))

end

end PoS
