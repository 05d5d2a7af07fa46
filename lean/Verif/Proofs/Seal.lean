import Verif.Model.Prover
import Verif.Proofs.Vde
import Verif.Proofs.Depend

/-
Helper lemmas about sealing and unsealing: one unit, one block, all blocks.
-/

namespace PoS

/-! ### Loops over lists -/

theorem forUp_add {σ : Type} (a b : Nat) (f : Nat → σ → R σ) (s : σ) :
    forUp (a + b) f s = (forUp a f s >>= forUp b (fun i => f (a + i))) := by
  induction b with
  | zero => cases forUp a f s <;> rfl
  | succ b ih =>
    rw [← Nat.add_assoc, forUp_succ, ih]
    cases h : forUp a f s with
    | error e => rfl
    | ok x => rfl

/-- `for i in 0..l.len() { .. l[i] .. }` is `for x in l`. -/
theorem forUp_at_eq_forEach {α σ : Type} (l : List α) (F : α → σ → R σ) (s : σ) :
    forUp l.length (fun i r => do
      let c ← at! l i
      F c r) s = forEach l F s := by
  induction l generalizing s with
  | nil => rfl
  | cons x l ih =>
    rw [List.length_cons, forUp_succ', forEach_cons]
    have h0 : at! (x :: l) 0 = .ok x := rfl
    simp only [h0, bind_ok]
    congr 1
    funext t
    rw [← ih t]
    rfl

theorem forEach_congr {α σ : Type} {l : List α} {F G : α → σ → R σ} {s : σ}
    (h : ∀ x ∈ l, ∀ s, F x s = G x s) : forEach l F s = forEach l G s := by
  induction l generalizing s with
  | nil => rfl
  | cons x l ih =>
    rw [forEach_cons, forEach_cons, h x (by simp)]
    congr 1
    funext t
    exact ih (fun y hy => h y (by simp [hy]))

theorem forEach_total {α σ : Type} {l : List α} {F : α → σ → R σ} {s : σ} (P : σ → Prop) (h0 : P s)
    (h : ∀ x ∈ l, ∀ s, P s → ∃ s', F x s = .ok s' ∧ P s') : ∃ t, forEach l F s = .ok t ∧ P t := by
  induction l generalizing s with
  | nil => exact ⟨s, rfl, h0⟩
  | cons x l ih =>
    obtain ⟨s', hs, hP⟩ := h x (by simp) s h0
    obtain ⟨t, ht, hPt⟩ := ih hP (fun y hy => h y (by simp [hy]))
    exact ⟨t, by rw [forEach_cons, hs]; exact ht, hPt⟩

/-! ### Assumptions on the modulus -/

/-- What the unit arithmetic needs of the modulus. -/
structure KeyOk (p unitPl : Nat) : Prop where
  prime : p.Prime
  mod4 : p % 4 = 3
  fits : p ≤ 256 ^ unitPl
  hash : 256 ^ 32 ≤ p

/-- Units of the padded length whose value is a residue. -/
def UnitsOk (p unitPl : Nat) (blk : List Bytes) : Prop :=
  ∀ u ∈ blk, u.length = unitPl ∧ leNat u < p

theorem UnitsOk.set {p unitPl : Nat} {blk : List Bytes} (h : UnitsOk p unitPl blk) {i : Nat} {v : Bytes}
    (hv : v.length = unitPl ∧ leNat v < p) : UnitsOk p unitPl (blk.set i v) := by
  intro u hu
  rcases List.mem_or_eq_of_mem_set hu with h1 | h1
  · exact h u h1
  · rw [h1]; exact hv

/-! ### Dependency data -/

theorem gather_set {l : List Nat} {cur : List Bytes} {idx : Nat} {v acc : Bytes} (h : idx ∉ l) :
    forEach l (fun j res => do
      let u ← at! (cur.set idx v) j
      pure (res ++ u)) acc = forEach l (fun j res => do
      let u ← at! cur j
      pure (res ++ u)) acc := by
  apply forEach_congr
  intro x hx s
  have hne : idx ≠ x := fun h' => h (h' ▸ hx)
  unfold at!
  rw [List.getElem?_set_ne hne]

/-- No static short list contains its own position. -/
def ShortOk (idxsS : List (List Nat)) : Prop := ∀ (i : Nat) (l : List Nat), idxsS[i]? = some l → i ∉ l

theorem unsealDependData_eq (H : Bytes → Bytes) (params : PosPara) (idxsS : List (List Nat))
    (deps : List (List Bytes)) (cur : List Bytes) (unitCnt idx1 : Nat) :
    unsealDependData H params idxsS deps cur unitCnt idx1 =
      sealDependData H params idxsS deps cur unitCnt idx1 := rfl

/-- The dependency data of a unit does not depend on the unit itself. -/
theorem sealDependData_set {H : Bytes → Bytes} {params : PosPara} {idxsS : List (List Nat)}
    (hs : ShortOk idxsS) {deps : List (List Bytes)} {cur : List Bytes} {unitCnt idx1 : Nat} {v : Bytes} :
    sealDependData H params idxsS deps (cur.set idx1 v) unitCnt idx1 =
      sealDependData H params idxsS deps cur unitCnt idx1 := by
  unfold sealDependData
  congr 1
  funext res
  split
  · cases hl : at! idxsS idx1 with
    | error e => rfl
    | ok l =>
      simp only [bind_ok]
      exact gather_set (hs idx1 l (at!_eq_ok.mp hl))
  · have hb : (if idx1 = 0 then shortDependRandom H unitCnt [] idx1 params.cntS
      else do
        let before ← at! (cur.set idx1 v) (idx1 - 1)
        shortDependRandom H unitCnt before idx1 params.cntS) = (if idx1 = 0 then shortDependRandom H unitCnt [] idx1 params.cntS
      else do
        let before ← at! cur (idx1 - 1)
        shortDependRandom H unitCnt before idx1 params.cntS) := by
      split
      · rfl
      · unfold at!
        rw [List.getElem?_set_ne (by omega)]
    rw [hb]
    cases hl : (if idx1 = 0 then shortDependRandom H unitCnt [] idx1 params.cntS
      else do
        let before ← at! cur (idx1 - 1)
        shortDependRandom H unitCnt before idx1 params.cntS) with
    | error e => rfl
    | ok l =>
      simp only [bind_ok]
      have : idx1 ∉ l := by
        intro hin
        split at hl
        · exact ((shortDependRandom_spec hl).2.2.1 _ hin).1 rfl
        · rw [bind_eq_ok] at hl
          obtain ⟨b, -, hl⟩ := hl
          exact ((shortDependRandom_spec hl).2.2.1 _ hin).1 rfl
      exact gather_set this

theorem createShortDepend_shortOk {num count mode : Nat} {t : List (List Nat)}
    (h : createShortDepend num count mode = .ok t) : ShortOk t := by
  obtain ⟨-, hs⟩ := table_spec h
  intro i l hl hin
  have hi : i < t.length := by
    by_contra hc
    rw [List.getElem?_eq_none (by omega)] at hl
    cases hl
  have hfi := hs i hi
  rw [List.getElem?_eq_getElem hi] at hl
  cases hl
  unfold shortDepend at hfi
  split at hfi
  · rw [shortMode1_eq] at hfi
    cases hfi' : t[i] with
    | nil => rw [hfi'] at hin; simp at hin
    | cons a b =>
      have hmem : i ∈ ((List.range (num + i + 1)).flatMap (pairAt num i)).take count := by
        have := Except.ok.inj hfi
        rw [this]; exact hin
      have := List.mem_of_mem_take hmem
      rw [List.mem_flatMap] at this
      obtain ⟨e, -, he⟩ := this
      unfold pairAt at he
      rw [List.mem_append] at he
      rcases he with he | he
      · split at he
        · simp at he; omega
        · simp at he
      · split at he
        · simp at he
        · simp at he
  · split at hfi
    · -- mode 2: every entry comes from a checked subtraction of at least one
      unfold shortMode2 at hfi
      rw [bind_eq_ok] at hfi
      obtain ⟨s, hs2, hfi⟩ := hfi
      have := forUp_inv (fun k (s : List Nat × Bool × Bool) => i ∉ s.1 ∧ (k = 0 → s.2.1 = false)) (by simp) (by
        intro k hk s s' ⟨hP, hP0⟩ hf
        refine ⟨?_, by omega⟩
        split at hf
        · cases hf; exact hP
        · simp only [bind_eq_ok] at hf
          obtain ⟨pw, hpw, d1, hd1, pw2, hpw2, idx, hidx, hf⟩ := hf
          split at hf
          · cases hf; exact hP
          · cases hf
            simp only [List.mem_append, List.mem_singleton, not_or]
            refine ⟨hP, ?_⟩
            have hk0 : k = 0 := by
              by_contra hne
              have : 2 ≤ 2 ^ k := by
                calc 2 = 2 ^ 1 := rfl
                  _ ≤ 2 ^ k := Nat.pow_le_pow_right (by norm_num) (by omega)
              unfold pow2! at hpw
              split at hpw
              · cases hpw
                rw [sub!_of_lt (by omega)] at hd1
                cases hd1
              · cases hpw
            rw [if_neg (by rw [hP0 hk0]; simp)] at hidx
            unfold sub! at hidx
            split at hidx
            · cases hidx
              omega
            · cases hidx) hs2
      have h2 := Except.ok.inj hfi
      rw [← h2] at hin
      exact this.1 hin
    · have h2 := Except.ok.inj hfi
      rw [← h2] at hin
      simp at hin

/-- Tables used by `seal`/`unseal`. -/
theorem idxsSOf_shortOk {params : PosPara} {n : Nat} {t : List (List Nat)}
    (h : idxsSOf params n = .ok t) : ShortOk t := by
  unfold idxsSOf at h
  split at h
  · exact createShortDepend_shortOk h
  · cases h
    intro i l hl
    simp at hl

/-! ### One unit -/

theorem hash_le {H : Bytes → Bytes} (hH : ∀ x, (H x).length = 32) {p unitPl : Nat} (hk : KeyOk p unitPl)
    (d : Bytes) : leNat (H d) < p := by
  have := leNat_lt (H d)
  rw [hH] at this
  exact lt_of_lt_of_le this hk.hash

section Unit

variable {H : Bytes → Bytes} (hH : ∀ x, (H x).length = 32) {params : PosPara} {p : Nat}
  (hk : KeyOk p params.unitPl) {iv : Bytes} {idxsS : List (List Nat)} {ids : List Bytes}
  {deps : List (List Bytes)} {unitCnt idx2 idx1 : Nat}

include hH hk

/-- Sealing a unit keeps the block well-formed, records the encoder input, and is
undone by unsealing the unit if that input is not zero. -/
theorem sealUnit_spec (hs : ShortOk idxsS) {beforeId : Bytes}
    (hb : idx2 ≠ 0 → ids[idx2 - 1]? = some beforeId) {s s' : List Bytes × List Nat}
    (hu : UnitsOk p params.unitPl s.1)
    (h : sealUnit H params (p : Int) iv idxsS ids deps unitCnt idx2 idx1 s = .ok s') :
    UnitsOk p params.unitPl s'.1 ∧ s'.1.length = s.1.length ∧
      ∃ v, s'.2 = s.2 ++ [v] ∧ (v ≠ 0 →
        unsealUnit H params (p : Int) iv idxsS beforeId deps unitCnt idx2 idx1 s'.1 = .ok s.1) := by
  obtain ⟨cur, log⟩ := s
  simp only at hu
  unfold sealUnit at h
  simp only at h
  rw [bind_eq_ok] at h
  obtain ⟨dd, hdd, h⟩ := h
  rw [bind_eq_ok] at h
  obtain ⟨dd2, hdd2, h⟩ := h
  rw [bind_eq_ok] at h
  obtain ⟨u, hu1, h⟩ := h
  rw [bind_eq_ok] at h
  obtain ⟨r, hr, h⟩ := h
  rw [bind_eq_ok] at h
  obtain ⟨cur', hcur', h⟩ := h
  cases h
  obtain ⟨hlt, rfl⟩ := put!_eq_ok.mp hcur'
  have humem : u ∈ cur := List.mem_of_getElem? (at!_eq_ok.mp hu1)
  obtain ⟨hul, hup⟩ := hu u humem
  have hp0 : 0 < p := hk.prime.pos
  have hfit : p ≤ 256 ^ u.length := by rw [hul]; exact hk.fits
  obtain ⟨r', hr', hrl, hrv⟩ := modadd_spec (u := u) (h := H dd2) hp0 hfit
  rw [hr] at hr'
  cases hr'
  have hrp : leNat r < p := by rw [hrv]; exact Nat.mod_lt _ hp0
  have hvl := rug_vde_length hk.prime hk.mod4 (t := params.vdeRounds) (mode := params.vdeMode)
    hrp hk.fits
  refine ⟨hu.set hvl, by simp, leNat r, rfl, ?_⟩
  intro hv
  have hspec := rug_vde_spec hk.prime hk.mod4 (t := params.vdeRounds) (mode := params.vdeMode)
    (Nat.pos_of_ne_zero hv) hrp hk.fits
  unfold unsealUnit
  rw [unsealDependData_eq, sealDependData_set hs, hdd, bind_ok]
  have hdd2' : (if idx1 = 0 then if idx2 = 0 then dd ++ iv else dd ++ beforeId else dd) = dd2 := by
    split at hdd2
    · rename_i h1
      rw [if_pos h1]
      split at hdd2
      · rename_i h2
        rw [if_pos h2]
        cases hdd2; rfl
      · rename_i h2
        rw [if_neg h2]
        rw [bind_eq_ok] at hdd2
        obtain ⟨b, hb1, hb2⟩ := hdd2
        rw [at!_eq_ok, hb h2] at hb1
        cases hb1
        cases hb2
        rfl
    · rename_i h1
      rw [if_neg h1]
      cases hdd2; rfl
  simp only [hdd2']
  have hat : at! (cur.set idx1 (Rug.vde r (p : Int) params.vdeRounds params.vdeMode params.unitPl)) idx1
      = .ok (Rug.vde r (p : Int) params.vdeRounds params.vdeMode params.unitPl) := by
    rw [at!_eq_ok, List.getElem?_set_self hlt]
  rw [hat, bind_ok]
  rw [modsub_modadd hp0 hup (le_of_lt (hash_le hH hk dd2)) hr (by rw [hspec.2.2.2.1, hul])
    hspec.2.2.2.2 hfit, bind_ok, put!_of_lt (by simpa using hlt), List.set_set]
  congr 1
  have : cur[idx1]? = some u := at!_eq_ok.mp hu1
  rw [List.getElem?_eq_getElem hlt] at this
  cases this
  simp

end Unit

/-- No encoder input recorded so far was zero. -/
def LogOk (s : List Bytes × List Nat) : Prop := ∀ v ∈ s.2, v ≠ 0

/-! ### One block in memory -/

section Rounds

variable {H : Bytes → Bytes} (hH : ∀ x, (H x).length = 32) {params : PosPara} {p : Nat}
  (hk : KeyOk p params.unitPl) {iv : Bytes} {idxsS : List (List Nat)} {ids : List Bytes}
  {deps : List (List Bytes)} {unitCnt idx2 : Nat}

include hH hk

theorem sealRound_spec (hs : ShortOk idxsS) {beforeId : Bytes}
    (hb : idx2 ≠ 0 → ids[idx2 - 1]? = some beforeId) {s s' : List Bytes × List Nat}
    (hu : UnitsOk p params.unitPl s.1)
    (h : forUp unitCnt (fun idx1 s =>
      sealUnit H params (p : Int) iv idxsS ids deps unitCnt idx2 idx1 s) s = .ok s') :
    (UnitsOk p params.unitPl s'.1 ∧ s'.1.length = s.1.length ∧ s.2 <+: s'.2) ∧
      (LogOk s' → LogOk s ∧ forDown unitCnt (fun idx1 c =>
        unsealUnit H params (p : Int) iv idxsS beforeId deps unitCnt idx2 idx1 c) s'.1 = .ok s.1) := by
  constructor
  · refine forUp_inv (fun _ (t : List Bytes × List Nat) => UnitsOk p params.unitPl t.1 ∧
      t.1.length = s.1.length ∧ s.2 <+: t.2) ⟨hu, rfl, List.prefix_refl _⟩ ?_ h
    intro k _ t t' ⟨h1, h2, h3⟩ hf
    obtain ⟨g1, g2, v, g3, -⟩ := sealUnit_spec hH hk hs hb h1 hf
    exact ⟨g1, by omega, by rw [g3]; exact h3.trans (List.prefix_append _ _)⟩
  · intro hg
    exact forUp_forDown (π := Prod.fst) (Good := LogOk) (fun _ t => UnitsOk p params.unitPl t.1) hu
      (by
        intro k _ t t' h1 hf
        obtain ⟨g1, g2, v, g3, g4⟩ := sealUnit_spec hH hk hs hb h1 hf
        refine ⟨g1, ?_⟩
        intro hgood
        have hv : v ≠ 0 := hgood v (by rw [g3]; simp)
        exact ⟨fun w hw => hgood w (by rw [g3]; simp [hw]), g4 hv⟩) h hg

theorem sealRoundsLoop_spec (hs : ShortOk idxsS) {beforeId : Bytes}
    (hb : idx2 ≠ 0 → ids[idx2 - 1]? = some beforeId) {s s' : List Bytes × List Nat}
    (hu : UnitsOk p params.unitPl s.1)
    (h : sealRoundsLoop H params (p : Int) iv idxsS ids deps unitCnt idx2 s = .ok s') :
    (UnitsOk p params.unitPl s'.1 ∧ s'.1.length = s.1.length ∧ s.2 <+: s'.2) ∧
      (LogOk s' → LogOk s ∧
        unsealRoundsLoop H params (p : Int) iv idxsS beforeId deps unitCnt idx2 s'.1 = .ok s.1) := by
  unfold sealRoundsLoop at h
  constructor
  · refine forUp_inv (fun _ (t : List Bytes × List Nat) => UnitsOk p params.unitPl t.1 ∧
      t.1.length = s.1.length ∧ s.2 <+: t.2) ⟨hu, rfl, List.prefix_refl _⟩ ?_ h
    intro k _ t t' ⟨h1, h2, h3⟩ hf
    obtain ⟨⟨g1, g2, g3⟩, -⟩ := sealRound_spec hH hk hs hb h1 hf
    exact ⟨g1, by omega, h3.trans g3⟩
  · intro hg
    exact forUp_forUp_const (π := Prod.fst) (Good := LogOk) (fun t => UnitsOk p params.unitPl t.1) hu
      (by
        intro t t' h1 hf
        obtain ⟨⟨g1, -, -⟩, g4⟩ := sealRound_spec hH hk hs hb h1 hf
        exact ⟨g1, g4⟩) h hg

end Rounds

/-! ### Files -/

/-- Geometry: `n` blocks of `c` units. -/
structure Layout (params : PosPara) (n c : Nat) : Prop where
  unit_pos : 0 < params.unitPl
  block : params.blockPl = c * params.unitPl
  cnt : params.dataL / params.blockL = n
  block_pos : 0 < params.blockL

/-- Block `i` of a file. -/
def blockOf (params : PosPara) (file : Bytes) (i : Nat) : Bytes :=
  readFile file (i * params.blockPl) params.blockPl

/-- All units of block `i` are residues. -/
def BlockOk (params : PosPara) (p c : Nat) (file : Bytes) (i : Nat) : Prop :=
  ∃ us, toUnits (blockOf params file i) params.unitPl = .ok us ∧ us.length = c ∧
    UnitsOk p params.unitPl us

theorem readFile_congr {f g : Bytes} {b l : Nat} (h : ∀ i, b ≤ i → i < b + l → f[i]? = g[i]?) :
    readFile f b l = readFile g b l := by
  apply List.ext_getElem?
  intro i
  rw [readFile_getElem?, readFile_getElem?]
  by_cases hi : i < l
  · rw [if_pos hi, if_pos hi, h (b + i) (by omega) (by omega)]
  · rw [if_neg hi, if_neg hi]

/-- Two files agree on block `i`. -/
theorem blockOf_congr {params : PosPara} {f g : Bytes} {i : Nat}
    (h : ∀ j, i * params.blockPl ≤ j → j < (i + 1) * params.blockPl → f[j]? = g[j]?) :
    blockOf params f i = blockOf params g i := by
  refine readFile_congr (fun j h1 h2 => h j h1 (by rw [Nat.add_mul, Nat.one_mul]; exact h2))

theorem readBlocks_congr {params : PosPara} {f g : Bytes} {l : List Nat}
    (h : ∀ i ∈ l, blockOf params f i = blockOf params g i) :
    readBlocks params f l = readBlocks params g l := by
  unfold readBlocks
  apply forEach_congr
  intro x hx s
  have := h x hx
  unfold blockOf at this
  simp only [this]

/-- Invariant of the block loop of `seal` after `k` blocks, started on `file0`. -/
structure SealInv (H : Bytes → Bytes) (params : PosPara) (p n c : Nat) (file0 : Bytes) (k : Nat)
    (s : SealState) : Prop where
  len : s.file.length = file0.length
  ids_len : s.ids.length = n
  ids : ∀ j < k, s.ids[j]? = some (H (blockOf params s.file j))
  tail : ∀ i, k * params.blockPl ≤ i → s.file[i]? = file0[i]?
  units : ∀ i < n, BlockOk params p c s.file i

theorem block_index {k i b : Nat} (h : k < i) : k * b + b ≤ i * b := by
  have : (k + 1) * b ≤ i * b := Nat.mul_le_mul_right b h
  rw [Nat.add_mul, Nat.one_mul] at this
  exact this

theorem longDeps_lt {H : Bytes → Bytes} {n idx2 cntL : Nat} {b : Bytes} {cur : List Nat}
    (h : (if idx2 = 0 then pure []
        else
          if cntL = 0 then longModeRandom H n b idx2 (idx2 / 10 + 1)
          else longModeRandom H n b idx2 cntL) = (.ok cur : R (List Nat))) : ∀ j ∈ cur, j < idx2 := by
  intro j hj
  split at h
  · cases h; simp at hj
  · split at h
    · exact (longModeRandom_spec h).2.2.1 j hj
    · exact (longModeRandom_spec h).2.2.1 j hj

/-- Static lists point backwards. -/
def LongOk (idxsL : List (List Nat)) : Prop :=
  ∀ (i : Nat) (l : List Nat), idxsL[i]? = some l → ∀ j ∈ l, j < i

/-- The dependency blocks of block `k`, read from any file that agrees with the
sealing state on the earlier blocks. -/
theorem sealDependBlocks_eq {H : Bytes → Bytes} {params : PosPara} {n : Nat} {idxsL : List (List Nat)}
    (hL : LongOk idxsL) {file file' : Bytes} {ids : List Bytes} {k : Nat} {beforeId : Bytes}
    (hb : k ≠ 0 → ids[k - 1]? = some beforeId)
    (hf : ∀ i < k, blockOf params file' i = blockOf params file i) :
    sealDependBlocks H params n idxsL file ids k =
      (if params.modeL = 0 then do
        let cur ←
         (if k = 0 then pure []
          else
            if params.cntL = 0 then longModeRandom H n beforeId k (k / 10 + 1)
            else longModeRandom H n beforeId k params.cntL : R (List Nat))
        readBlocks params file' cur
      else do
        let cur ← at! idxsL k
        readBlocks params file' cur) := by
  unfold sealDependBlocks
  split
  · have hcur : (if k = 0 then pure []
      else do
        let before ← at! ids (k - 1)
        if params.cntL = 0 then longModeRandom H n before k (k / 10 + 1)
        else longModeRandom H n before k params.cntL) =
        (if k = 0 then pure []
          else
            if params.cntL = 0 then longModeRandom H n beforeId k (k / 10 + 1)
            else longModeRandom H n beforeId k params.cntL : R (List Nat)) := by
      split
      · rfl
      · rename_i hk0
        rw [at!_eq_ok.mpr (hb hk0), bind_ok]
    rw [hcur]
    cases hc : (if k = 0 then pure []
          else
            if params.cntL = 0 then longModeRandom H n beforeId k (k / 10 + 1)
            else longModeRandom H n beforeId k params.cntL : R (List Nat)) with
    | error e => rfl
    | ok cur =>
      simp only [bind_ok]
      exact (readBlocks_congr (fun i hi => hf i (longDeps_lt hc i hi))).symm
  · cases hc : at! idxsL k with
    | error e => rfl
    | ok cur =>
      simp only [bind_ok]
      exact (readBlocks_congr (fun i hi => hf i (hL k cur (at!_eq_ok.mp hc) i hi))).symm

section Blocks

variable {H : Bytes → Bytes} (hH : ∀ x, (H x).length = 32) {params : PosPara} {p n c : Nat}
  (hk : KeyOk p params.unitPl) (hlay : Layout params n c) {iv : Bytes}
  {idxsL idxsS : List (List Nat)}

include hH hk hlay

/-- Everything known about the sealing of one block. -/
theorem sealBlock_spec (hs : ShortOk idxsS) {file0 : Bytes} (hlen : n * params.blockPl ≤ file0.length)
    {k : Nat} (hkn : k < n) {s s' : SealState} (hinv : SealInv H params p n c file0 k s)
    (h : sealBlock H params (p : Int) iv n idxsL idxsS k s = .ok s') :
    SealInv H params p n c file0 (k + 1) s' ∧ s.log <+: s'.log ∧
    (∀ i, i < k * params.blockPl → s'.file[i]? = s.file[i]?) ∧
    ∃ us us' deps beforeId,
      (k ≠ 0 → s.ids[k - 1]? = some beforeId) ∧ (k = 0 → beforeId = []) ∧
      (k ≠ 0 → beforeId = H (blockOf params s'.file (k - 1))) ∧
      toUnits (blockOf params s.file k) params.unitPl = .ok us ∧ us.length = c ∧
      toUnits (blockOf params s'.file k) params.unitPl = .ok us' ∧ us'.length = c ∧
      us.flatten = blockOf params file0 k ∧
      sealDependBlocks H params n idxsL s.file s.ids k = .ok deps ∧
      sealRoundsLoop H params (p : Int) iv idxsS s.ids deps c k (us, s.log) = .ok (us', s'.log) ∧
      s.file = writeAt s'.file (k * params.blockPl) us.flatten ∧
      ((∀ v ∈ s'.log, v ≠ 0) → (∀ v ∈ s.log, v ≠ 0) ∧
        unsealRoundsLoop H params (p : Int) iv idxsS beforeId deps c k us' = .ok us) := by
  obtain ⟨us, hus, husl, huok⟩ := hinv.units k hkn
  have hread : readFile s.file (k * params.blockPl) params.blockPl = blockOf params s.file k := rfl
  unfold sealBlock at h
  simp only [hread, hus, bind_ok] at h
  rw [bind_eq_ok] at h
  obtain ⟨deps, hdeps, h⟩ := h
  rw [bind_eq_ok] at h
  obtain ⟨r, hr, h⟩ := h
  rw [comUnits_eq, bind_ok, bind_eq_ok] at h
  obtain ⟨ids', hids', h⟩ := h
  cases h
  obtain ⟨hidl, rfl⟩ := put!_eq_ok.mp hids'
  rw [husl] at hr
  -- the previous identifier
  obtain ⟨beforeId, hbid, hbid0⟩ : ∃ b : Bytes, (k ≠ 0 → s.ids[k - 1]? = some b) ∧ (k = 0 → b = []) := by
    by_cases hk0 : k = 0
    · exact ⟨[], fun h => absurd hk0 h, fun _ => rfl⟩
    · exact ⟨_, fun _ => hinv.ids (k - 1) (by omega), fun h => absurd h hk0⟩
  obtain ⟨⟨r1, r2, r3⟩, r4⟩ := sealRoundsLoop_spec hH hk hs hbid huok hr
  simp only at r2
  have hrl : ∀ u ∈ r.1, u.length = params.unitPl := fun u hu => (r1 u hu).1
  have hout : r.1.flatten.length = params.blockPl := by
    rw [flatten_length_const _ _ hrl, r2, husl, hlay.block]
  have hkb := block_index (b := params.blockPl) hkn
  have hoff : k * params.blockPl + r.1.flatten.length ≤ s.file.length := by
    rw [hout, hinv.len]; omega
  have hwlen := writeAt_length s.file r.1.flatten (k * params.blockPl) hoff
  -- what reads see
  have hsame : blockOf params (writeAt s.file (k * params.blockPl) r.1.flatten) k = r.1.flatten := by
    unfold blockOf
    have := readFile_writeAt_same s.file r.1.flatten (k * params.blockPl) (by omega)
    rw [hout] at this
    exact this
  have hother : ∀ i, i ≠ k → blockOf params (writeAt s.file (k * params.blockPl) r.1.flatten) i
      = blockOf params s.file i := by
    intro i hi
    refine readFile_writeAt_disjoint _ _ _ _ _ (by omega) ?_
    rw [hout]
    rcases Nat.lt_or_gt_of_ne hi with h | h
    · left; exact block_index h
    · right; exact block_index h
  have hus' : toUnits (blockOf params (writeAt s.file (k * params.blockPl) r.1.flatten) k) params.unitPl
      = .ok r.1 := by
    rw [hsame]
    exact toUnits_flatten _ _ hlay.unit_pos hrl
  have husflat : us.flatten = blockOf params s.file k := by
    have hbl : (blockOf params s.file k).length = c * params.unitPl := by
      unfold blockOf; rw [readFile_length, hlay.block]
    obtain ⟨vs, hvs, -, -, hvf⟩ := toUnits_ok (blockOf params s.file k) params.unitPl c hlay.unit_pos hbl
    rw [hus] at hvs
    cases hvs
    exact hvf
  refine ⟨⟨?_, ?_, ?_, ?_, ?_⟩, r3, ?_, us, r.1, deps, beforeId, hbid, hbid0, ?_, hus, husl, hus', by omega, ?_, hdeps,
    hr, ?_, ?_⟩
  · simp only; rw [hwlen, hinv.len]
  · simp [hinv.ids_len]
  · intro j hj
    simp only
    by_cases hjk : j = k
    · subst hjk
      rw [List.getElem?_set_self hidl, hsame]
    · rw [List.getElem?_set_ne (by omega), hother j hjk]
      exact hinv.ids j (by omega)
  · intro i hi
    simp only
    rw [Nat.add_mul, Nat.one_mul] at hi
    rw [writeAt_getElem? _ _ _ _ (by omega), if_neg (by omega)]
    exact hinv.tail i (by omega)
  · intro i hi
    by_cases hik : i = k
    · subst hik
      exact ⟨r.1, hus', by omega, r1⟩
    · unfold BlockOk
      simp only
      rw [hother i hik]
      exact hinv.units i hi
  · intro i hi
    rw [writeAt_getElem? _ _ _ _ (by omega), if_neg (by omega)]
  · intro hk0
    have h1 := hbid hk0
    rw [hinv.ids (k - 1) (by omega)] at h1
    have h2 := Option.some.inj h1
    simp only
    rw [hother (k - 1) (by omega), h2]
  · rw [husflat]
    apply blockOf_congr
    intro j hj _
    exact hinv.tail j hj
  · simp only
    rw [husflat]
    unfold blockOf
    have := writeAt_writeAt_read s.file r.1.flatten (k * params.blockPl) hoff
    rw [hout] at this
    exact this.symm
  · exact r4

/-- The state before and after block `k` in a run of `seal`, and what the final
state keeps of it. -/
theorem seal_trace (hs : ShortOk idxsS) {file0 : Bytes} (hlen : n * params.blockPl ≤ file0.length)
    {s0 : SealState} (h0 : SealInv H params p n c file0 0 s0) {m : Nat} (hm : m ≤ n) {t : SealState}
    (h : forUp m (fun idx2 s => sealBlock H params (p : Int) iv n idxsL idxsS idx2 s) s0 = .ok t) :
    SealInv H params p n c file0 m t ∧ s0.log <+: t.log ∧
    ∀ k < m, ∃ s s', SealInv H params p n c file0 k s ∧
      sealBlock H params (p : Int) iv n idxsL idxsS k s = .ok s' ∧
      SealInv H params p n c file0 (k + 1) s' ∧ s'.log <+: t.log ∧
      forUp (k + 1) (fun idx2 s => sealBlock H params (p : Int) iv n idxsL idxsS idx2 s) s0 = .ok s' ∧
      (∀ i, i < (k + 1) * params.blockPl → t.file[i]? = s'.file[i]?) := by
  induction m generalizing t with
  | zero =>
    simp only [forUp_zero, Except.ok.injEq] at h
    subst h
    exact ⟨h0, List.prefix_refl _, fun k hk => absurd hk (by omega)⟩
  | succ m ih =>
    have hfull := h
    rw [forUp_succ, bind_eq_ok] at h
    obtain ⟨a, ha, hf⟩ := h
    obtain ⟨i1, i2, i3⟩ := ih (by omega) ha
    obtain ⟨j1, j2, j3, -⟩ := sealBlock_spec hH hk hlay hs hlen (by omega) i1 hf
    refine ⟨j1, i2.trans j2, ?_⟩
    intro k hkm
    rcases Nat.lt_or_ge k m with hlt | hge
    · obtain ⟨s, s', k1, k2, k3, k4, k6, k5⟩ := i3 k hlt
      refine ⟨s, s', k1, k2, k3, k4.trans j2, k6, ?_⟩
      intro i hi
      rw [← k5 i hi]
      have : (k + 1) * params.blockPl ≤ m * params.blockPl := Nat.mul_le_mul_right _ hlt
      exact j3 i (by omega)
    · have : k = m := by omega
      subst this
      exact ⟨a, t, i1, hf, j1, List.prefix_refl _, hfull, fun i _ => rfl⟩

/-- Static lists that are prefixes of the block sequence. -/
def PrefixLists (idxsL : List (List Nat)) : Prop :=
  ∀ (i : Nat) (l : List Nat), idxsL[i]? = some l → l = List.range l.length

omit hH hk hlay in
theorem unsealDependBlocks_eq {file : Bytes} {k : Nat} {beforeId : Bytes}
    (hmode : params.modeL = 0 ∨ PrefixLists idxsL) :
    unsealDependBlocks H params n idxsL file beforeId k =
      (if params.modeL = 0 then do
        let cur ←
         (if k = 0 then pure []
          else
            if params.cntL = 0 then longModeRandom H n beforeId k (k / 10 + 1)
            else longModeRandom H n beforeId k params.cntL : R (List Nat))
        readBlocks params file cur
      else do
        let cur ← at! idxsL k
        readBlocks params file cur) := by
  unfold unsealDependBlocks readBlocks
  split
  · congr 1
    funext cur
    exact forUp_at_eq_forEach cur (fun c res => do
      let buf := readFile file (c * params.blockPl) params.blockPl
      let ans ← toUnits buf params.unitPl
      pure (res ++ [ans])) []
  · rename_i hne
    have hpre : PrefixLists idxsL := hmode.resolve_left hne
    cases hc : at! idxsL k with
    | error e => rfl
    | ok cur =>
      simp only [bind_ok]
      have hcur := hpre k cur (at!_eq_ok.mp hc)
      rw [← forUp_at_eq_forEach]
      apply forUp_congr
      intro i hi s
      have : at! cur i = .ok i := by
        rw [at!_eq_ok, hcur, List.getElem?_range hi]
      rw [this, bind_ok]

/-- Unsealing block `k` directly after sealing it restores the file. -/
theorem unsealBlock_sealBlock (hs : ShortOk idxsS) (hL : LongOk idxsL)
    (hmode : params.modeL = 0 ∨ PrefixLists idxsL) {file0 : Bytes}
    (hlen : n * params.blockPl ≤ file0.length) {k : Nat} (hkn : k < n) {s s' : SealState}
    (hinv : SealInv H params p n c file0 k s)
    (h : sealBlock H params (p : Int) iv n idxsL idxsS k s = .ok s') (hlog : ∀ v ∈ s'.log, v ≠ 0) :
    (∀ v ∈ s.log, v ≠ 0) ∧
      unsealBlock H params (p : Int) iv n idxsL idxsS k s'.file = .ok s.file := by
  obtain ⟨-, -, hkeep, us, us', deps, beforeId, hb, hb0, hb', hus, husl, hus', husl', -, hdeps, hr, hback, hgood⟩ :=
    sealBlock_spec hH hk hlay hs hlen hkn hinv h
  obtain ⟨hlog', hun⟩ := hgood hlog
  refine ⟨hlog', ?_⟩
  have hbid : unsealBeforeId H params s'.file k = beforeId := by
    unfold unsealBeforeId
    split
    · rename_i hk0
      rw [hb' hk0]; rfl
    · rename_i hk0
      simp only [ne_eq, not_not] at hk0
      rw [hb0 hk0]
  have hblocks : ∀ i < k, blockOf params s'.file i = blockOf params s.file i := by
    intro i hi
    apply blockOf_congr
    intro j _ hj
    apply hkeep
    have : (i + 1) * params.blockPl ≤ k * params.blockPl := Nat.mul_le_mul_right _ hi
    omega
  have hd := sealDependBlocks_eq (H := H) (params := params) (n := n) hL hb hblocks
  rw [hdeps] at hd
  have hread : readFile s'.file (k * params.blockPl) params.blockPl = blockOf params s'.file k := rfl
  have hud : unsealDependBlocks H params n idxsL s'.file beforeId k = .ok deps := by
    rw [unsealDependBlocks_eq hmode, ← hd]
  unfold unsealBlock
  simp only [hbid, hread, hus', bind_ok, husl', hud, hun, comUnits_eq, pure_eq_ok]
  rw [← hback]

/-- Unsealing the first `m` blocks after sealing them restores the file. -/
theorem unseal_seal (hs : ShortOk idxsS) (hL : LongOk idxsL)
    (hmode : params.modeL = 0 ∨ PrefixLists idxsL) {file0 : Bytes}
    (hlen : n * params.blockPl ≤ file0.length)
    {s0 : SealState} (h0 : SealInv H params p n c file0 0 s0) {m : Nat} (hm : m ≤ n) {t : SealState}
    (h : forUp m (fun idx2 s => sealBlock H params (p : Int) iv n idxsL idxsS idx2 s) s0 = .ok t)
    (hlog : ∀ v ∈ t.log, v ≠ 0) :
    forDown m (fun idx2 f => unsealBlock H params (p : Int) iv n idxsL idxsS idx2 f) t.file
      = .ok s0.file := by
  have := forUp_forDown (π := SealState.file) (Good := fun s => ∀ v ∈ s.log, v ≠ 0)
    (g := fun idx2 f => unsealBlock H params (p : Int) iv n idxsL idxsS idx2 f)
    (fun k s => SealInv H params p n c file0 k s) h0
    (by
      intro k hk1 s s' hinv hf
      refine ⟨(sealBlock_spec hH hk hlay hs hlen (by omega) hinv hf).1, ?_⟩
      intro hg
      exact unsealBlock_sealBlock hH hk hlay hs hL hmode hlen (by omega) hinv hf hg) h hlog
  exact this.2

end Blocks

end PoS
