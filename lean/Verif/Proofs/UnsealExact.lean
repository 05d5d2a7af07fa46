import Verif.Proofs.SealExact
import Verif.Spec.Unsealing

/-
`unsealFile` computes the blocks of `Sealing.unsealedBlock`.
-/

set_option linter.unusedSectionVars false

namespace PoS

/-! ### The decoder on arbitrary numbers -/

theorem undelay_lt {p : Nat} (hp : p.Prime) (y : Nat) : undelay p y < p := by
  unfold undelay
  simp only
  have hx : (if y % 2 = 1 then (y + 1) % p else (y + p - 1) % p) < p := by
    split <;> exact Nat.mod_lt _ hp.pos
  generalize (if y % 2 = 1 then (y + 1) % p else (y + p - 1) % p) = x at hx ⊢
  have h1 : x ^ 2 % p < p := Nat.mod_lt _ hp.pos
  by_cases h : x % 2 = 1
  · rw [if_pos h]
    have h0 : x ^ 2 % p ≠ 0 := by
      intro h0
      have := Nat.le_of_dvd (by omega) (hp.dvd_of_dvd_pow (Nat.dvd_of_mod_eq_zero h0))
      omega
    omega
  · rw [if_neg h]; exact h1

theorem singleSlothInv_undelay {p : Nat} (h34 : p % 4 = 3) (y : Nat) :
    Rug.singleSlothInv (y : Int) (p : Int) = (undelay p y : Nat) := by
  have h2 : (2 : Int) = ((2 : Nat) : Int) := rfl
  have key : ∀ x : Nat, (if ((x : Nat) : Int).tmod 2 = 1 then (p : Int) - (powMod (x : Int) 2 (p : Int)).tmod (p : Int)
      else powMod (x : Int) 2 (p : Int)) = ((if x % 2 = 1 then p - x ^ 2 % p else x ^ 2 % p : Nat) : Int) := by
    intro x
    rw [h2, powMod_natCast, tmod_natCast, tmod_natCast, Nat.mod_mod]
    have : x ^ 2 % p ≤ p := (Nat.mod_lt _ (by omega)).le
    by_cases hx : x % 2 = 1
    · rw [if_pos (by rw [hx]; rfl), if_pos hx]
      omega
    · rw [if_neg (by omega), if_neg hx]
  have htm : (y : Int).tmod 2 = ((y % 2 : Nat) : Int) := tmod_natCast y 2
  unfold Rug.singleSlothInv undelay
  simp only
  by_cases hy : y % 2 = 1
  · have hx : (if (y : Int).tmod 2 = 1 then ((y : Int) + 1).tmod (p : Int) else ((y : Int) - 1).tmod (p : Int)) =
        (((y + 1) % p : Nat) : Int) := by
      rw [if_pos (by rw [htm, hy]; rfl), ← tmod_natCast]; push_cast; rfl
    rw [hx, if_pos hy]
    exact key _
  · have hx : (if (y : Int).tmod 2 = 1 then ((y : Int) + 1).tmod (p : Int) else ((y : Int) - 1).tmod (p : Int)) =
        ((y : Int) - 1).tmod (p : Int) := by
      rw [if_neg (by rw [htm]; omega)]
    rw [hx, if_neg hy]
    rcases Nat.eq_zero_or_pos y with rfl | hpos
    · have hm1 : ((0 : Nat) : Int) - 1 = -1 := rfl
      rw [hm1]
      have hp1 : 1 < p := by omega
      have e1 : (-1 : Int).tmod (p : Int) = -1 := by
        rw [Int.neg_tmod, show (1 : Int) = ((1 : Nat) : Int) from rfl, tmod_natCast, Nat.mod_eq_of_lt hp1]
      rw [e1, if_neg (by decide)]
      have e2 : (0 + p - 1) % p = p - 1 := by rw [Nat.zero_add]; exact Nat.mod_eq_of_lt (by omega)
      rw [e2, if_neg (by omega)]
      have e3 : (p - 1) ^ 2 % p = 1 := by
        obtain ⟨m, rfl⟩ : ∃ m, p = m + 2 := ⟨p - 2, by omega⟩
        rw [show (m + 2 - 1) ^ 2 = 1 + (m + 2) * m by
          rw [show m + 2 - 1 = m + 1 by omega]; ring]
        rw [Nat.add_mul_mod_self_left, Nat.mod_eq_of_lt (by omega)]
      rw [e3]
      unfold powMod
      rw [powModNat_eq]
      have e4 : ((-1 : Int) % (p : Int)).toNat = p - 1 := by
        have : (-1 : Int) % (p : Int) = ((p : Int) - 1) % (p : Int) := by
          rw [← Int.add_emod_right (-1) (p : Int)]
          congr 1
        rw [this, Int.emod_eq_of_lt (by omega) (by omega)]; omega
      rw [e4, Int.toNat_natCast]
      show (((p - 1) ^ 2 % p : Nat) : Int) = _
      rw [e3]
    · rw [show ((y : Int) - 1).tmod (p : Int) = (((y + p - 1) % p : Nat) : Int) by
        rw [show y + p - 1 = (y - 1) + p by omega, Nat.add_mod_right, ← tmod_natCast]
        congr 1; omega]
      exact key _

theorem slothInv_undelay {p : Nat} (h34 : p % 4 = 3) (y t : Nat) :
    Rug.slothInv (y : Int) (p : Int) t = (((undelay p)^[t] y : Nat) : Int) := by
  induction t with
  | zero => rfl
  | succ t ih =>
    rw [Function.iterate_succ_apply']
    show Rug.singleSlothInv (Rug.slothInv (y : Int) (p : Int) t) (p : Int) = _
    rw [ih, singleSlothInv_undelay h34]

theorem undelay_iterate_lt {p : Nat} (hp : p.Prime) {l : Nat} (hfit : p ≤ 256 ^ l) {y t : Nat} (hy : y < 256 ^ l) :
    (undelay p)^[t] y < 256 ^ l := by
  cases t with
  | zero => exact hy
  | succ t =>
    rw [Function.iterate_succ_apply']
    exact lt_of_lt_of_le (undelay_lt hp _) hfit

theorem vdeInv_eq {p l t : Nat} {mode : String} (hp : p.Prime) (h34 : p % 4 = 3) {y : Bytes} (hy : y.length = l)
    (hfit : p ≤ 256 ^ l) :
    Rug.vdeInv y (p : Int) t mode l = leBytes l ((undelay p)^[t] (leNat y)) := by
  have hlt : (undelay p)^[t] (leNat y) < 256 ^ l := undelay_iterate_lt hp hfit (by rw [← hy]; exact leNat_lt y)
  obtain ⟨w, k1, k2, k3⟩ := pad_spec hlt
  have : Rug.vdeInv y (p : Int) t mode l = w := by
    unfold Rug.vdeInv
    simp only [ite_self]
    rw [slothInv_undelay h34, Int.natAbs_natCast]
    exact k1
  rw [this]
  exact eq_leBytes k2 k3

theorem undelay_eq_unstep {p z : Nat} (h34 : p % 4 = 3) (hz0 : 0 < z) (hzp : z < p) : undelay p z = unstep p z := by
  unfold undelay unstep
  simp only
  by_cases hz : z % 2 = 1
  · rw [if_pos hz, if_pos hz, Nat.mod_eq_of_lt (show z + 1 < p by omega), if_neg (by omega)]
  · rw [if_neg hz, if_neg hz, show z + p - 1 = (z - 1) + p by omega, Nat.add_mod_right, Nat.mod_eq_of_lt (show z - 1 < p by omega),
      if_pos (by omega)]

/-! ### Units, blocks, files -/

theorem foldl_range_reverse {β : Type} (g : β → Nat → β) (c : Nat) (b : β) :
    (List.range c).foldl (fun b j => g b (c - 1 - j)) b = (List.range c).reverse.foldl g b := by
  have : (List.range c).reverse = (List.range c).map (fun j => c - 1 - j) := by
    apply List.ext_getElem
    · simp
    · intro i h1 h2
      simp
  rw [this, List.foldl_map]

theorem forUp_eq_forEach_range {σ : Type} (n : Nat) (f : Nat → σ → R σ) (s : σ) :
    forUp n f s = forEach (List.range n) f s := by
  have := forUp_at_eq_forEach (List.range n) f s
  rw [List.length_range] at this
  rw [← this]
  refine forUp_congr fun i hi s => ?_
  rw [at!_of_lt (by simpa using hi), bind_ok, List.getElem_range]

/-- `unseal` reads the blocks of `long`, which are earlier ones. -/
def UnsealLongIs (H : Bytes → Bytes) (params : PosPara) (n : Nat) (idxsL : List (List Nat))
    (long : Bytes → Nat → List Nat) : Prop :=
  ∀ k < n, ∀ id : Bytes, (∀ i ∈ long id k, i < k) ∧ ∀ file : Bytes,
    unsealDependBlocks H params n idxsL file id k = readBlocks params file (long id k)

section

variable {H : Bytes → Bytes} (hH : ∀ x, (H x).length = 32) {params : PosPara} {p n c : Nat}
  (hk : KeyOk p params.unitPl) (hlay : Layout params n c)
  {iv : Bytes} {long short : Bytes → Nat → List Nat}
  {idxsL idxsS : List (List Nat)} (hshort : ShortIs H params c idxsS short) (hlong : UnsealLongIs H params n idxsL long)

/-- Unmasking a decoded unit. -/
theorem unmask_eq {H : Bytes → Bytes} (hH : ∀ x, (H x).length = 32) {params : PosPara} {p : Nat} (hk : KeyOk p params.unitPl)
    {u m : Bytes} (hul : u.length = params.unitPl) :
    modsub (Rug.vdeInv u (p : Int) params.vdeRounds params.vdeMode params.unitPl) (H m) (p : Int) =
      .ok (leBytes params.unitPl (((undelay p)^[params.vdeRounds] (leNat u) + p - leNat (H m)) % p)) := by
  rw [vdeInv_eq hk.prime hk.mod4 hul hk.fits]
  have hlt : (undelay p)^[params.vdeRounds] (leNat u) < 256 ^ params.unitPl :=
    undelay_iterate_lt hk.prime hk.fits (by rw [← hul]; exact leNat_lt u)
  have hm := hash_le hH hk m
  obtain ⟨r, h1, h2, h3⟩ := modsub_spec (u := leBytes params.unitPl ((undelay p)^[params.vdeRounds] (leNat u))) (h := H m)
    hk.prime.pos (by rw [leBytes_length]; exact hk.fits) (by omega)
  rw [h1]
  rw [leNat_leBytes hlt] at h3
  rw [leBytes_length] at h2
  rw [eq_leBytes h2 h3]

include hH hk in
/-- One unit, when the units it refers to are those of `short`. -/
theorem unsealUnit_eq_of {beforeId : Bytes} {deps : List (List Bytes)} {k : Nat}
    (hdeps : ∀ d ∈ deps, d.length = c) {cur : List Bytes} (hcur : cur.length = c)
    (hu : ∀ u ∈ cur, u.length = params.unitPl) {j : Nat} (hj : j < c)
    (hloc : sealDependData H params idxsS deps cur c j =
      .ok ((deps.map (fun d => d.getD j [])).flatten ++
        ((short (if j = 0 then [] else cur.getD (j - 1) []) j).map (fun i => cur.getD i [])).flatten)) :
    unsealUnit H params (p : Int) iv idxsS beforeId deps c k j cur =
      .ok ((sealingOf H params p c iv long short).unstepUnit ((undelay p)^[params.vdeRounds]) deps
        (if k = 0 then iv else beforeId) cur j) := by
  unfold unsealUnit
  rw [unsealDependData_eq, hloc, bind_ok]
  simp only
  generalize hdd : (deps.map (fun d => d.getD j [])).flatten ++
        ((short (if j = 0 then [] else cur.getD (j - 1) []) j).map
          (fun i => cur.getD i [])).flatten = dd
  have h2 : (if j = 0 then
      if k = 0 then dd ++ iv else dd ++ beforeId
    else dd) = (sealingOf H params p c iv long short).maskInput deps (if k = 0 then iv else beforeId) cur j := by
    unfold Sealing.maskInput
    rw [show (sealingOf H params p c iv long short).short = short from rfl, hdd]
    by_cases h0 : j = 0
    · rw [if_pos h0, if_pos h0]
      by_cases hk0 : k = 0
      · rw [if_pos hk0, if_pos hk0]
      · rw [if_neg hk0, if_neg hk0]
    · rw [if_neg h0, if_neg h0, List.append_nil]
  rw [h2]
  generalize hm : (sealingOf H params p c iv long short).maskInput deps (if k = 0 then iv else beforeId) cur j = m
  have hjl : j < cur.length := by omega
  rw [getD_of_at (d := []) hjl, bind_ok]
  have humem : cur.getD j [] ∈ cur := by
    rw [List.getD_eq_getElem?_getD, List.getElem?_eq_getElem hjl]
    exact List.getElem_mem hjl
  rw [unmask_eq hH hk (hu _ humem), bind_ok, put!_of_lt hjl]
  unfold Sealing.unstepUnit
  rw [hm]
  rfl

include hH hk hshort in
theorem unsealUnit_eq {beforeId : Bytes} {deps : List (List Bytes)} {k : Nat}
    (hdeps : ∀ d ∈ deps, d.length = c) {cur : List Bytes} (hcur : cur.length = c)
    (hu : ∀ u ∈ cur, u.length = params.unitPl) {j : Nat} (hj : j < c) :
    unsealUnit H params (p : Int) iv idxsS beforeId deps c k j cur =
      .ok ((sealingOf H params p c iv long short).unstepUnit ((undelay p)^[params.vdeRounds]) deps
        (if k = 0 then iv else beforeId) cur j) :=
  unsealUnit_eq_of hH hk hdeps hcur hu hj (hshort deps hdeps cur hcur j hj)

theorem unstepUnit_shape {S : Sealing} {dec : Nat → Nat} {deps : List (List Bytes)} {chain : Bytes} {b : List Bytes} {j : Nat}
    (hu : ∀ u ∈ b, u.length = S.unitPl) :
    (S.unstepUnit dec deps chain b j).length = b.length ∧ ∀ u ∈ S.unstepUnit dec deps chain b j, u.length = S.unitPl := by
  unfold Sealing.unstepUnit
  refine ⟨by simp, fun u hu' => ?_⟩
  rcases List.mem_or_eq_of_mem_set hu' with h | h
  · exact hu u h
  · rw [h, leBytes_length]

/-- The loops over rounds and units, for any step that computes `unstepUnit`. -/
theorem unsealLoop_eq {S : Sealing} {dec : Nat → Nat} {deps : List (List Bytes)} {chain : Bytes}
    {F : Nat → List Bytes → R (List Bytes)}
    (hF : ∀ j < S.c, ∀ b : List Bytes, b.length = S.c → (∀ u ∈ b, u.length = S.unitPl) →
      F j b = .ok (S.unstepUnit dec deps chain b j))
    {cur : List Bytes} (hcur : cur.length = S.c) (hu : ∀ u ∈ cur, u.length = S.unitPl) :
    forUp S.rounds (fun _ s =>
      forUp S.c (fun j s => do
        let a ← sub! S.c 1
        let idx1 ← sub! a j
        F idx1 s) s) cur = .ok (S.unsealOne dec deps chain cur) ∧
      (S.unsealOne dec deps chain cur).length = S.c ∧ ∀ u ∈ S.unsealOne dec deps chain cur, u.length = S.unitPl := by
  obtain ⟨t, h1, h2, h3⟩ := forUp_fold (n := S.rounds) (s := cur) (f := fun _ s =>
      forUp S.c (fun j s => do
        let a ← sub! S.c 1
        let idx1 ← sub! a j
        F idx1 s) s)
    (π := fun s : List Bytes => s)
    (g := fun b _ => (List.range S.c).foldl (fun b j => S.unstepUnit dec deps chain b (S.c - 1 - j)) b)
    (P := fun s => s.length = S.c ∧ ∀ u ∈ s, u.length = S.unitPl) ⟨hcur, hu⟩ (by
      intro _ _ s hs
      exact forUp_fold (π := fun s : List Bytes => s)
        (g := fun b j => S.unstepUnit dec deps chain b (S.c - 1 - j))
        (P := fun s => s.length = S.c ∧ ∀ u ∈ s, u.length = S.unitPl) hs (by
          intro j hj s hs
          obtain ⟨g1, g2⟩ := unstepUnit_shape (S := S) (dec := dec) (deps := deps) (chain := chain) (j := S.c - 1 - j) hs.2
          refine ⟨_, ?_, rfl, by rw [g1]; exact hs.1, g2⟩
          rw [sub!_of_le (by omega), bind_ok, sub!_of_le (by omega), bind_ok]
          exact hF _ (by omega) s hs.1 hs.2))
  have e : t = S.unsealOne dec deps chain cur := by
    have h2' : t = (List.range S.rounds).foldl (fun b _ => (List.range S.c).foldl
        (fun b j => S.unstepUnit dec deps chain b (S.c - 1 - j)) b) cur := h2
    rw [h2']
    simp only [foldl_range_reverse (S.unstepUnit dec deps chain)]
    exact foldl_const _ _ _
  subst e
  exact ⟨h1, h3⟩

theorem readBlocks_eq {params : PosPara} {n c : Nat} (hlay : Layout params n c) (file : Bytes) (l : List Nat) :
    readBlocks params file l = .ok (l.map (plainUnits params c file)) := by
  unfold readBlocks
  have := forEach_collect_map (l := l) (g := fun i => toUnits
      (readFile file (i * params.blockPl) params.blockPl) params.unitPl)
      (g' := plainUnits params c file) (fun i _ => toUnits_plain hlay file i) []
  rw [List.nil_append] at this
  exact this

theorem plainUnits_length (params : PosPara) (c : Nat) (file : Bytes) (k : Nat) : (plainUnits params c file k).length = c := by
  simp [plainUnits]

theorem plainUnits_unit (params : PosPara) (c : Nat) (file : Bytes) (k : Nat) :
    ∀ u ∈ plainUnits params c file k, u.length = params.unitPl := by
  intro u hu
  unfold plainUnits at hu
  obtain ⟨j, -, rfl⟩ := List.mem_map.mp hu
  exact readFile_length _ _ _

theorem plainUnits_flatten {params : PosPara} {n c : Nat} (hlay : Layout params n c) (file : Bytes) (k : Nat) :
    (plainUnits params c file k).flatten = blockOf params file k := by
  obtain ⟨us, h1, -, -, h4, -⟩ := blockOf_units hlay file k
  have := toUnits_plain hlay file k
  unfold blockOf at h1 h4 ⊢
  rw [h1] at this
  rw [← Except.ok.inj this, h4]

theorem plainUnits_congr {params : PosPara} {n c : Nat} (hlay : Layout params n c) {f g : Bytes} {k : Nat}
    (h : blockOf params f k = blockOf params g k) : plainUnits params c f k = plainUnits params c g k := by
  have h1 := toUnits_plain hlay f k
  have h2 := toUnits_plain hlay g k
  unfold blockOf at h
  rw [h, h2] at h1
  exact (Except.ok.inj h1).symm

include hH hk hlay hlong in
/-- One block, when its loops either compute the described block or panic. -/
theorem unsealBlock_cases {k : Nat} (hkn : k < n) (file : Bytes) {P : Prop} {e : Panic}
    (hloop : ∀ deps chain bid, deps = ((sealingOf H params p c iv long short).long
        (H (plainUnits params c file (k - 1)).flatten) k).map (plainUnits params c file) →
      chain = (if k = 0 then iv else H (plainUnits params c file (k - 1)).flatten) → chain = (if k = 0 then iv else bid) →
      (P ∧ unsealRoundsLoop H params (p : Int) iv idxsS bid deps c k (plainUnits params c file k) =
          .ok ((sealingOf H params p c iv long short).unsealOne ((undelay p)^[params.vdeRounds]) deps chain
            (plainUnits params c file k)) ∧
        ((sealingOf H params p c iv long short).unsealOne ((undelay p)^[params.vdeRounds]) deps chain
            (plainUnits params c file k)).length = c ∧
        ∀ u ∈ (sealingOf H params p c iv long short).unsealOne ((undelay p)^[params.vdeRounds]) deps chain
            (plainUnits params c file k), u.length = params.unitPl) ∨
      (¬ P ∧ unsealRoundsLoop H params (p : Int) iv idxsS bid deps c k (plainUnits params c file k) = .error e)) :
    (P ∧ unsealBlock H params (p : Int) iv n idxsL idxsS k file =
      .ok (writeAt file (k * params.blockPl) ((sealingOf H params p c iv long short).unsealedBlock
        ((undelay p)^[params.vdeRounds]) (plainUnits params c file) k).flatten) ∧
    ((sealingOf H params p c iv long short).unsealedBlock
        ((undelay p)^[params.vdeRounds]) (plainUnits params c file) k).length = c ∧
    ∀ u ∈ (sealingOf H params p c iv long short).unsealedBlock
        ((undelay p)^[params.vdeRounds]) (plainUnits params c file) k, u.length = params.unitPl) ∨
    (¬ P ∧ unsealBlock H params (p : Int) iv n idxsL idxsS k file = .error e) := by
  set S := sealingOf H params p c iv long short with hSd
  set id := S.H (plainUnits params c file (k - 1)).flatten with hid
  set bid := unsealBeforeId H params file k with hbid
  have hide : (if k = 0 then iv else bid) = (if k = 0 then S.iv else id) := by
    by_cases h0 : k = 0
    · rw [if_pos h0, if_pos h0]; rfl
    · rw [if_neg h0, if_neg h0, hid, plainUnits_flatten hlay, hbid]
      unfold unsealBeforeId
      rw [if_pos h0]; rfl
  have hdeps : unsealDependBlocks H params n idxsL file bid k = .ok ((S.long id k).map (plainUnits params c file)) := by
    rw [(hlong k hkn bid).2 file, readBlocks_eq hlay]
    by_cases h0 : k = 0
    · have e1 : ∀ x : Bytes, long x k = [] := by
        intro x
        by_contra hne
        obtain ⟨i, hi⟩ := List.exists_mem_of_ne_nil _ hne
        have := (hlong k hkn x).1 i hi
        omega
      rw [e1, show S.long id k = [] from e1 id]
    · have : bid = id := by simpa only [if_neg h0] using hide
      rw [this]; rfl
  rcases hloop ((S.long id k).map (plainUnits params c file)) (if k = 0 then S.iv else id) bid rfl rfl hide.symm with
    ⟨hP, l1, l2, l3⟩ | ⟨hP, l1⟩
  · refine Or.inl ⟨hP, ?_, l2, l3⟩
    unfold unsealBlock
    simp only
    rw [toUnits_plain hlay, bind_ok, hdeps, bind_ok, plainUnits_length, l1, bind_ok, comUnits_eq, bind_ok]
    rfl
  · refine Or.inr ⟨hP, ?_⟩
    unfold unsealBlock
    simp only
    rw [toUnits_plain hlay, bind_ok, hdeps, bind_ok, plainUnits_length, l1, bind_error]

include hH hk hlay hshort hlong in
theorem unsealBlock_exact {k : Nat} (hkn : k < n) (file : Bytes) :
    unsealBlock H params (p : Int) iv n idxsL idxsS k file =
      .ok (writeAt file (k * params.blockPl) ((sealingOf H params p c iv long short).unsealedBlock
        ((undelay p)^[params.vdeRounds]) (plainUnits params c file) k).flatten) ∧
    ((sealingOf H params p c iv long short).unsealedBlock
        ((undelay p)^[params.vdeRounds]) (plainUnits params c file) k).length = c ∧
    ∀ u ∈ (sealingOf H params p c iv long short).unsealedBlock
        ((undelay p)^[params.vdeRounds]) (plainUnits params c file) k, u.length = params.unitPl := by
  rcases unsealBlock_cases hH hk hlay hlong (iv := iv) (short := short) (idxsS := idxsS) hkn file (P := True) (e := .index)
    (fun deps chain bid hdeps _ hide => by
      refine Or.inl ⟨trivial, ?_⟩
      refine unsealLoop_eq (S := sealingOf H params p c iv long short) (dec := (undelay p)^[params.vdeRounds])
        (deps := deps) (chain := chain)
        (F := fun j b => unsealUnit H params (p : Int) iv idxsS bid deps c k j b)
        (cur := plainUnits params c file k) ?_ (plainUnits_length _ _ _ _) (plainUnits_unit _ _ _ _)
      intro j hj b hb hub
      rw [hide]
      refine unsealUnit_eq hH hk hshort ?_ hb hub hj
      intro d hd
      rw [hdeps] at hd
      obtain ⟨i, -, rfl⟩ := List.mem_map.mp hd
      exact plainUnits_length _ _ _ _) with ⟨-, h⟩ | ⟨h, -⟩
  · exact h
  · exact absurd trivial h

/-- Hash-chosen blocks. -/
theorem unsealLongIs_hash {H : Bytes → Bytes} (hH : ∀ x, (H x).length = 32) {params : PosPara} {n : Nat}
    (hL : params.modeL = 0) (hn : LongCountOk n params.cntL) {idxsL : List (List Nat)} :
    UnsealLongIs H params n idxsL (hashLong H n params.cntL) := by
  intro k hk id
  obtain ⟨h1, h2⟩ := longIs_hash hH hL hn (idxsL := idxsL) k hk id
  refine ⟨h1, fun file => ?_⟩
  rw [← h2 file (List.replicate k id) (fun h0 => by rw [List.getElem?_replicate, if_pos (by omega)]),
    unsealDependBlocks_eq (Or.inl hL), if_pos hL]
  unfold sealDependBlocks
  rw [if_pos hL]
  by_cases hk0 : k = 0
  · rw [if_pos hk0, if_pos hk0]
  · rw [if_neg hk0, if_neg hk0]
    rw [at!_eq_ok.mpr (show (List.replicate k id)[k - 1]? = some id by rw [List.getElem?_replicate, if_pos (by omega)]), bind_ok]

/-- From a table `unseal` takes only the number of blocks. -/
theorem unsealLongIs_table {H : Bytes → Bytes} {params : PosPara} {n c : Nat} (hlay : Layout params n c)
    (hL : params.modeL ≠ 0) {idxsL : List (List Nat)} {f : Nat → List Nat} (ht : ∀ k < n, idxsL[k]? = some (f k))
    (hf : ∀ k < n, (f k).length ≤ k) : UnsealLongIs H params n idxsL (fun _ k => List.range (f k).length) := by
  intro k hk id
  refine ⟨fun i hi => lt_of_lt_of_le (List.mem_range.mp hi) (hf k hk), fun file => ?_⟩
  unfold unsealDependBlocks
  rw [if_neg hL, at!_eq_ok.mpr (ht k hk), bind_ok, forUp_eq_forEach_range]
  rfl

include hlay hlong in
/-- All blocks, from the last to the first, when each is either the described one or a panic: after `i`
blocks the last `i` are unsealed and the others are as before. -/
theorem unsealLoop_cases {file : Bytes} (hlen : n * params.blockPl ≤ file.length) {P : Nat → Prop} {e : Panic}
    (hblock : ∀ k < n, ∀ f : Bytes, (∀ j ≤ k, plainUnits params c f j = plainUnits params c file j) →
      (P k ∧ unsealBlock H params (p : Int) iv n idxsL idxsS k f =
        .ok (writeAt f (k * params.blockPl) ((sealingOf H params p c iv long short).unsealedBlock
          ((undelay p)^[params.vdeRounds]) (plainUnits params c f) k).flatten) ∧
        ((sealingOf H params p c iv long short).unsealedBlock
          ((undelay p)^[params.vdeRounds]) (plainUnits params c f) k).length = c ∧
        ∀ u ∈ (sealingOf H params p c iv long short).unsealedBlock
          ((undelay p)^[params.vdeRounds]) (plainUnits params c f) k, u.length = params.unitPl) ∨
      (¬ P k ∧ unsealBlock H params (p : Int) iv n idxsL idxsS k f = .error e)) :
    ∃ m ≤ n, ∃ out, forUp m (fun i f => do
        let a ← sub! n 1
        let idx2 ← sub! a i
        unsealBlock H params (p : Int) iv n idxsL idxsS idx2 f) file = .ok out ∧
      ((∀ k < n, n - m ≤ k → blockOf params out k = ((sealingOf H params p c iv long short).unsealedBlock
        ((undelay p)^[params.vdeRounds]) (plainUnits params c file) k).flatten) ∧
      out.length = file.length ∧ (∀ i, n * params.blockPl ≤ i → out[i]? = file[i]?) ∧
      ∀ i, i < (n - m) * params.blockPl → out[i]? = file[i]?) ∧
      (∀ k < n, n - m ≤ k → P k) ∧
      (m < n → ¬ P (n - 1 - m) ∧ unsealBlock H params (p : Int) iv n idxsL idxsS (n - 1 - m) out = .error e) := by
  set S := sealingOf H params p c iv long short with hSd
  set dec := (undelay p)^[params.vdeRounds] with hdec
  have key := forUp_decide (n := n) (s := file) (e := e) (P := fun i => P (n - 1 - i)) (f := fun i f => do
        let a ← sub! n 1
        let idx2 ← sub! a i
        unsealBlock H params (p : Int) iv n idxsL idxsS idx2 f)
    (inv := fun i f => (∀ k < n, n - i ≤ k → blockOf params f k =
        (S.unsealedBlock dec (plainUnits params c file) k).flatten) ∧ f.length = file.length ∧
      (∀ x, n * params.blockPl ≤ x → f[x]? = file[x]?) ∧ (∀ x, x < (n - i) * params.blockPl → f[x]? = file[x]?))
    ⟨fun k hk hk' => by omega, rfl, fun _ _ => rfl, fun _ _ => rfl⟩ (by
      intro i hi f ⟨b1, b2, b3, b4⟩
      have hkn : n - 1 - i < n := by omega
      set k := n - 1 - i with hkdef
      rw [sub!_of_le (by omega), bind_ok, sub!_of_le (by omega), bind_ok]
      have hk1 : n - i = k + 1 := by omega
      have hsame : ∀ j ≤ k, plainUnits params c f j = plainUnits params c file j := by
        intro j hj
        refine plainUnits_congr hlay (readFile_congr fun x hx1 hx2 => b4 x ?_)
        have : (j + 1) * params.blockPl ≤ (n - i) * params.blockPl := Nat.mul_le_mul_right _ (by omega)
        rw [Nat.add_mul, Nat.one_mul] at this
        omega
      rcases hblock k hkn f hsame with ⟨hP, e1, e2, e3⟩ | ⟨hP, e1⟩
      swap
      · exact Or.inr ⟨hP, e1⟩
      refine Or.inl ⟨hP, ?_⟩
      have hblk : S.unsealedBlock dec (plainUnits params c f) k = S.unsealedBlock dec (plainUnits params c file) k := by
        unfold Sealing.unsealedBlock
        simp only
        rw [hsame k (Nat.le_refl k), hsame (k - 1) (by omega)]
        congr 1
        refine List.map_congr_left fun j hj => hsame j ?_
        exact ((hlong k hkn _).1 j hj).le
      rw [hblk] at e1 e2 e3
      have hout : (S.unsealedBlock dec (plainUnits params c file) k).flatten.length = params.blockPl := by
        rw [flatten_length_const _ _ e3, e2, hlay.block]
      have hkb : k * params.blockPl + params.blockPl ≤ n * params.blockPl := block_index hkn
      have hw : ∀ x, (writeAt f (k * params.blockPl) (S.unsealedBlock dec (plainUnits params c file) k).flatten)[x]? =
          if k * params.blockPl ≤ x ∧ x < k * params.blockPl + params.blockPl then
            (S.unsealedBlock dec (plainUnits params c file) k).flatten[x - k * params.blockPl]? else f[x]? := by
        intro x
        rw [writeAt_getElem? _ _ _ _ (by omega), hout]
      refine ⟨_, e1, ?_, ?_, ?_, ?_⟩
      · intro j hj hj'
        rcases Nat.lt_or_ge k j with h | h
        · rw [← b1 j hj (by omega)]
          refine readFile_congr fun x hx1 hx2 => ?_
          have : k * params.blockPl + params.blockPl ≤ j * params.blockPl := block_index h
          rw [hw, if_neg (by omega)]
        · rw [show j = k by omega]
          have := readFile_writeAt_same f (S.unsealedBlock dec (plainUnits params c file) k).flatten
            (k * params.blockPl) (by omega)
          rw [hout] at this
          exact this
      · rw [writeAt_length _ _ _ (by rw [hout]; omega), b2]
      · intro x hx
        rw [hw, if_neg (by omega)]
        exact b3 x hx
      · intro x hx
        have e : (n - (i + 1)) = k := by omega
        rw [e] at hx
        rw [hw, if_neg (by omega)]
        refine b4 x ?_
        have : (k + 1) * params.blockPl = k * params.blockPl + params.blockPl := by rw [Nat.add_mul, Nat.one_mul]
        rw [hk1]; omega)
  rcases key with ⟨hP, out, h1, h2⟩ | ⟨⟨m, hm, hP, hno, out, h1, h2, h3⟩, -⟩
  · refine ⟨n, Nat.le_refl n, out, h1, h2, fun k hk _ => ?_, fun h => absurd h (by omega)⟩
    have := hP (n - 1 - k) (by omega)
    rwa [show n - 1 - (n - 1 - k) = k by omega] at this
  · refine ⟨m, hm.le, out, h1, h2, fun k hk hk' => ?_, fun _ => ⟨hno, ?_⟩⟩
    · have := hP (n - 1 - k) (by omega)
      rwa [show n - 1 - (n - 1 - k) = k by omega] at this
    · rw [sub!_of_le (by omega), bind_ok, sub!_of_le (by omega), bind_ok] at h3
      exact h3


include hH hk hlay hshort hlong in
theorem unsealLoop_exact {file : Bytes} (hlen : n * params.blockPl ≤ file.length) :
    ∃ out, forUp n (fun i f => do
        let a ← sub! n 1
        let idx2 ← sub! a i
        unsealBlock H params (p : Int) iv n idxsL idxsS idx2 f) file = .ok out ∧
      (∀ k < n, blockOf params out k = ((sealingOf H params p c iv long short).unsealedBlock
        ((undelay p)^[params.vdeRounds]) (plainUnits params c file) k).flatten) ∧
      out.length = file.length ∧ ∀ i, n * params.blockPl ≤ i → out[i]? = file[i]? := by
  obtain ⟨m, hm, out, h1, ⟨h2, h3, h4, -⟩, -, h5⟩ := unsealLoop_cases hlay hlong hlen (P := fun _ => True) (e := .index)
    (iv := iv) (short := short) (idxsS := idxsS)
    (fun k hkn f _ => Or.inl ⟨trivial, unsealBlock_exact hH hk hlay hshort hlong hkn f⟩)
  obtain rfl : m = n := by
    by_contra hne
    exact (h5 (by omega)).1 trivial
  exact ⟨out, h1, fun k hk => h2 k hk (by omega), h3, h4⟩

end

end PoS
