import Verif.Properties.Crash
import Verif.Properties.Decoding

/-
C94: every answer, well-formed or not.  Which answers the verifier can process, what it computes from
them, and its verdict, for hash-chosen short dependencies (the shipped mode).
-/

namespace PoS

set_option linter.unusedSectionVars false

/-- Block `i` of an answer can be decoded: there is a challenged index for it, and if it has units at
all, there are at most 65536, dependency data are submitted for it in which every block has at least as
many units, and the identifier of the block before is submitted, unless the index is 0. -/
def ProcessableAt (idxs : List Nat) (blocks : List (List Bytes)) (befores : List Bytes)
    (deps : List (List (List Bytes))) (i : Nat) : Prop :=
  i < idxs.length ∧ (blocks.getD i [] ≠ [] →
    (blocks.getD i []).length ≤ 65536 ∧ i < deps.length ∧
    (∀ d ∈ deps.getD i [], (blocks.getD i []).length ≤ d.length) ∧
    (idxs.getD i 0 ≠ 0 → i < befores.length))

instance (idxs : List Nat) (blocks : List (List Bytes)) (befores : List Bytes)
    (deps : List (List (List Bytes))) (i : Nat) : Decidable (ProcessableAt idxs blocks befores deps i) := by
  unfold ProcessableAt
  infer_instance

/-- What block `i` of an answer decodes to: the unsealing of as many units as were submitted. -/
def decodedAny (H : Bytes → Bytes) (params : PosPara) (p : Nat) (iv : Bytes) (idxs : List Nat) (blocks : List (List Bytes))
    (befores : List Bytes) (deps : List (List (List Bytes))) (i : Nat) : List Bytes :=
  let b := blocks.getD i []
  (sealingOf H params p b.length iv (fun _ _ => []) (hashShort H b.length params.cntS)).unsealOne
    ((undelay p)^[params.vdeRounds]) (deps.getD i []) (if idxs.getD i 0 = 0 then iv else befores.getD i []) b

/-- If a loop returns, every one of its steps did. -/
theorem forUp_step_inv {σ : Type} {n : Nat} {f : Nat → σ → R σ} {s t : σ} (P : Nat → σ → Prop)
    (h0 : P 0 s) (hstep : ∀ k < n, ∀ s s', P k s → f k s = .ok s' → P (k + 1) s')
    (h : forUp n f s = .ok t) : ∀ k < n, ∃ s', P k s' ∧ ∃ s'', f k s' = .ok s'' := by
  induction n generalizing t with
  | zero => intro k hk; omega
  | succ n ih =>
    rw [forUp_succ, bind_eq_ok] at h
    obtain ⟨m, h1, h2⟩ := h
    intro k hk
    rcases Nat.lt_succ_iff_lt_or_eq.mp hk with hk | hk
    · exact ih (fun k hk => hstep k (by omega)) h1 k hk
    · subst hk
      exact ⟨m, forUp_inv P h0 (fun j hj => hstep j (by omega)) h1, t, h2⟩

theorem vdeInv_any {p l t : Nat} {mode : String} (hp : p.Prime) (h34 : p % 4 = 3) (ht : 0 < t) (y : Bytes)
    (hfit : p ≤ 256 ^ l) :
    Rug.vdeInv y (p : Int) t mode l = leBytes l ((undelay p)^[t] (leNat y)) := by
  have hlt : (undelay p)^[t] (leNat y) < 256 ^ l := by
    obtain ⟨t, rfl⟩ : ∃ s, t = s + 1 := ⟨t - 1, by omega⟩
    rw [Function.iterate_succ_apply']
    exact lt_of_lt_of_le (undelay_lt hp _) hfit
  obtain ⟨w, k1, k2, k3⟩ := pad_spec hlt
  have : Rug.vdeInv y (p : Int) t mode l = w := by
    unfold Rug.vdeInv
    simp only [ite_self]
    rw [slothInv_undelay h34, Int.natAbs_natCast]
    exact k1
  rw [this]
  exact eq_leBytes k2 k3

section

variable {H : Bytes → Bytes} (hH : ∀ x, (H x).length = 32) {params : PosPara} {p : Nat}
  (hk : KeyOk p params.unitPl) (ht : 0 < params.vdeRounds) (hS : params.modeS = 0)

include hH hk ht hS in
/-- One unit, whatever the lengths of the submitted units and blocks. -/
theorem batchUnit_any {iv : Bytes} {idxsS : List (List Nat)} {befores : List Bytes} {deps : List (List (List Bytes))}
    {m i idx2 j : Nat} {cur : List Bytes} {d : List (List Bytes)} (hm : m ≤ 65536) (hcur : cur.length = m) (hj : j < m)
    (hd : deps[i]? = some d) (hdl : ∀ x ∈ d, j < x.length) (hbe : idx2 ≠ 0 → i < befores.length)
    {long : Bytes → Nat → List Nat} :
    batchUnit H params (p : Int) iv idxsS befores deps m i idx2 j cur =
      .ok ((sealingOf H params p m iv long (hashShort H m params.cntS)).unstepUnit ((undelay p)^[params.vdeRounds]) d
        (if idx2 = 0 then iv else befores.getD i []) cur j) := by
  have hm0 : 0 < m := by omega
  have hdep : batchDependData H params idxsS deps cur m i j =
      .ok ((d.map (fun d => d.getD j [])).flatten ++
        ((hashShort H m params.cntS (if j = 0 then [] else cur.getD (j - 1) []) j).map (fun i => cur.getD i [])).flatten) := by
    unfold batchDependData
    rw [at!_eq_ok.mpr hd, bind_ok]
    have h1 : forUp d.length (fun k res => do
        let b ← at! d k
        let u ← at! b j
        pure (res ++ u)) ([] : Bytes) = .ok ((d.map (fun d => d.getD j [])).flatten) := by
      rw [forUp_at_eq_forEach d (fun b res => do
        let u ← at! b j
        pure (res ++ u)) []]
      exact forEach_gather (g := fun b => at! b j) (fun x hx => getD_of_at (hdl x hx)) []
    rw [h1, bind_ok, if_neg (by simp [hS])]
    have h2 : (if j = 0 then shortDependRandom H m [] j params.cntS
        else do
          let before ← at! cur (j - 1)
          shortDependRandom H m before j params.cntS : R (List Nat)) =
        .ok (hashShort H m params.cntS (if j = 0 then [] else cur.getD (j - 1) []) j) := by
      by_cases h0 : j = 0
      · rw [if_pos h0, if_pos h0, shortDependRandom_eq hH hm0 (Or.inl hm), sortDedup_eq_sort]
        rfl
      · rw [if_neg h0, if_neg h0, getD_of_at (d := []) (by omega), bind_ok, shortDependRandom_eq hH hm0 (Or.inl hm),
          sortDedup_eq_sort]
        rfl
    rw [h2, bind_ok]
    exact gatherUnits hcur (hashShort_lt hm0) _
  unfold batchUnit
  rw [hdep, bind_ok]
  generalize hdd : (d.map (fun d => d.getD j [])).flatten ++
    ((hashShort H m params.cntS (if j = 0 then [] else cur.getD (j - 1) []) j).map (fun i => cur.getD i [])).flatten = dd
  have h2 : (if j = 0 then
      if idx2 = 0 then pure (dd ++ iv)
      else do
        let before ← at! befores i
        pure (dd ++ before)
    else pure dd : R Bytes) = .ok ((sealingOf H params p m iv long (hashShort H m params.cntS)).maskInput d
        (if idx2 = 0 then iv else befores.getD i []) cur j) := by
    unfold Sealing.maskInput
    rw [show (sealingOf H params p m iv long (hashShort H m params.cntS)).short = hashShort H m params.cntS from rfl, hdd]
    by_cases h0 : j = 0
    · rw [if_pos h0, if_pos h0]
      by_cases hk0 : idx2 = 0
      · rw [if_pos hk0, if_pos hk0]; rfl
      · rw [if_neg hk0, if_neg hk0, getD_of_at (d := []) (hbe hk0), bind_ok]; rfl
    · rw [if_neg h0, if_neg h0, List.append_nil]; rfl
  rw [h2, bind_ok]
  simp only []
  generalize hmi : (sealingOf H params p m iv long (hashShort H m params.cntS)).maskInput d
    (if idx2 = 0 then iv else befores.getD i []) cur j = mi
  rw [getD_of_at (d := []) (by omega), bind_ok, vdeInv_any hk.prime hk.mod4 ht _ hk.fits]
  have hlt : (undelay p)^[params.vdeRounds] (leNat (cur.getD j [])) < p := by
    obtain ⟨t, e⟩ : ∃ s, params.vdeRounds = s + 1 := ⟨params.vdeRounds - 1, by omega⟩
    rw [e, Function.iterate_succ_apply']
    exact undelay_lt hk.prime _
  have hmle := hash_le hH hk mi
  obtain ⟨r, h3, h4, h5⟩ := modsub_spec (u := leBytes params.unitPl ((undelay p)^[params.vdeRounds] (leNat (cur.getD j []))))
    (h := H mi) hk.prime.pos (by rw [leBytes_length]; exact hk.fits) (by omega)
  rw [leNat_leBytes (lt_of_lt_of_le hlt hk.fits)] at h5
  rw [leBytes_length] at h4
  rw [h3, bind_ok, put!_of_lt (by omega), eq_leBytes h4 h5]
  unfold Sealing.unstepUnit
  rw [hmi]
  rfl

/-- The loops over rounds and units, with no condition on the lengths of the units. -/
theorem unsealLoop_any {S : Sealing} {dec : Nat → Nat} {deps : List (List Bytes)} {chain : Bytes}
    {F : Nat → List Bytes → R (List Bytes)}
    (hF : ∀ j < S.c, ∀ b : List Bytes, b.length = S.c → F j b = .ok (S.unstepUnit dec deps chain b j))
    {cur : List Bytes} (hcur : cur.length = S.c) :
    forUp S.rounds (fun _ s =>
      forUp S.c (fun j s => do
        let a ← sub! S.c 1
        let idx1 ← sub! a j
        F idx1 s) s) cur = .ok (S.unsealOne dec deps chain cur) := by
  obtain ⟨t, h1, h2, h3⟩ := forUp_fold (n := S.rounds) (s := cur) (f := fun _ s =>
      forUp S.c (fun j s => do
        let a ← sub! S.c 1
        let idx1 ← sub! a j
        F idx1 s) s)
    (π := fun s : List Bytes => s)
    (g := fun b _ => (List.range S.c).foldl (fun b j => S.unstepUnit dec deps chain b (S.c - 1 - j)) b)
    (P := fun s => s.length = S.c) hcur (by
      intro _ _ s hs
      exact forUp_fold (π := fun s : List Bytes => s)
        (g := fun b j => S.unstepUnit dec deps chain b (S.c - 1 - j))
        (P := fun s => s.length = S.c) hs (by
          intro j hj s hs
          refine ⟨_, ?_, rfl, by unfold Sealing.unstepUnit; simpa using hs⟩
          rw [sub!_of_le (by omega), bind_ok, sub!_of_le (by omega), bind_ok]
          exact hF _ (by omega) s hs))
  rw [h1]
  congr 1
  have h2' : t = (List.range S.rounds).foldl (fun b _ => (List.range S.c).foldl
      (fun b j => S.unstepUnit dec deps chain b (S.c - 1 - j)) b) cur := h2
  rw [h2']
  simp only [foldl_range_reverse (S.unstepUnit dec deps chain)]
  exact foldl_const _ _ _

include hH hk ht hS in
theorem batchBlock_any {iv : Bytes} {idxsS : List (List Nat)} {idxs : List Nat} {blocks : List (List Bytes)}
    {befores : List Bytes} {deps : List (List (List Bytes))} {i : Nat} (hi : i < blocks.length)
    (hpr : ProcessableAt idxs blocks befores deps i) :
    batchBlock H params (p : Int) iv idxsS idxs befores deps i blocks =
      .ok (decodedAny H params p iv idxs blocks befores deps i) := by
  obtain ⟨h1, h2⟩ := hpr
  unfold batchBlock decodedAny
  rw [getD_of_at (d := 0) h1, bind_ok, getD_of_at (d := []) hi, bind_ok]
  simp only []
  generalize blocks.getD i [] = b at h2
  by_cases hb : b = []
  · subst hb
    exact unsealLoop_any (S := sealingOf H params p 0 iv (fun _ _ => []) (hashShort H 0 params.cntS))
      (F := fun j s => batchUnit H params (p : Int) iv idxsS befores deps 0 i (idxs.getD i 0) j s)
      (fun j hj => absurd hj (Nat.not_lt_zero _)) rfl
  · obtain ⟨h3, h4, h5, h6⟩ := h2 hb
    exact unsealLoop_any (S := sealingOf H params p b.length iv (fun _ _ => []) (hashShort H b.length params.cntS))
      (F := fun j s => batchUnit H params (p : Int) iv idxsS befores deps b.length i (idxs.getD i 0) j s)
      (fun j hj s hs => batchUnit_any hH hk ht hS h3 hs hj (by
        rw [List.getElem?_eq_getElem h4, List.getD_eq_getElem?_getD, List.getElem?_eq_getElem h4]
        rfl) (fun x hx => lt_of_lt_of_le hj (h5 x hx)) h6) rfl

include hH hS in
/-- If a block is decoded, it was processable. -/
theorem processable_of_ok (hr : 0 < params.sealRounds) {key : Int} {iv : Bytes} {idxsS : List (List Nat)}
    {idxs : List Nat} {blocks : List (List Bytes)} (hcnt : 6 ≤ params.cntS ∨ ∀ b ∈ blocks, b.length ≤ 65536)
    {befores : List Bytes} {deps : List (List (List Bytes))} {i : Nat} {b : List Bytes}
    (h : batchBlock H params key iv idxsS idxs befores deps i blocks = .ok b) :
    i < blocks.length ∧ ProcessableAt idxs blocks befores deps i := by
  unfold batchBlock at h
  rw [bind_eq_ok] at h
  obtain ⟨idx2, h1, h⟩ := h
  rw [bind_eq_ok] at h
  obtain ⟨cur, h2, h⟩ := h
  rw [at!_eq_ok] at h1 h2
  have hi1 : i < idxs.length := (List.getElem?_eq_some_iff.mp h1).1
  have hi2 : i < blocks.length := (List.getElem?_eq_some_iff.mp h2).1
  refine ⟨hi2, hi1, ?_⟩
  rw [List.getD_eq_getElem?_getD, h2, List.getD_eq_getElem?_getD, List.getD_eq_getElem?_getD, h1]
  simp only [Option.getD_some]
  intro hne
  have hpos : 0 < cur.length := List.length_pos_of_ne_nil hne
  obtain ⟨s1, -, s2, h3⟩ := forUp_step_inv (fun _ _ => True) trivial (fun _ _ _ _ _ _ => trivial) h 0 hr
  have hstep : ∀ j < cur.length, ∃ s s', batchUnit H params key iv idxsS befores deps cur.length i idx2 (cur.length - 1 - j) s =
      .ok s' := by
    intro j hj
    obtain ⟨s, -, s', h4⟩ := forUp_step_inv (fun _ _ => True) trivial (fun _ _ _ _ _ _ => trivial) h3 j hj
    rw [sub!_of_le (by omega), bind_ok, sub!_of_le (by omega), bind_ok] at h4
    exact ⟨s, s', h4⟩
  -- the first step looks at the last unit
  obtain ⟨s, s', h4⟩ := hstep 0 hpos
  unfold batchUnit at h4
  rw [bind_eq_ok] at h4
  obtain ⟨dd, h5, -⟩ := h4
  unfold batchDependData at h5
  rw [bind_eq_ok] at h5
  obtain ⟨d, h6, h5⟩ := h5
  rw [bind_eq_ok] at h5
  obtain ⟨res, h7, h5⟩ := h5
  rw [if_neg (by simp [hS]), bind_eq_ok] at h5
  obtain ⟨ans, h8, -⟩ := h5
  rw [at!_eq_ok] at h6
  refine ⟨?_, (List.getElem?_eq_some_iff.mp h6).1, ?_, ?_⟩
  · by_contra hlarge
    have hl : 65536 < cur.length := by omega
    have hcnt : 6 ≤ params.cntS := hcnt.resolve_right fun h => absurd (h cur (List.mem_of_getElem? h2)) hlarge
    rw [if_neg (by omega), bind_eq_ok] at h8
    obtain ⟨before, -, h8⟩ := h8
    rw [shortDependRandom_large hH hl hcnt] at h8
    cases h8
  · intro x hx
    rw [h6] at hx
    change x ∈ d at hx
    obtain ⟨k, hk, rfl⟩ := List.getElem_of_mem hx
    obtain ⟨u, -, u', h9⟩ := forUp_step_inv (fun _ _ => True) trivial (fun _ _ _ _ _ _ => trivial) h7 k hk
    rw [at!_of_lt hk, bind_ok, bind_eq_ok] at h9
    obtain ⟨w, h9, -⟩ := h9
    rw [at!_eq_ok] at h9
    have := (List.getElem?_eq_some_iff.mp h9).1
    omega
  · intro h0
    obtain ⟨s, s', h4⟩ := hstep (cur.length - 1) (by omega)
    rw [Nat.sub_self] at h4
    unfold batchUnit at h4
    rw [bind_eq_ok] at h4
    obtain ⟨dd, -, h4⟩ := h4
    rw [bind_eq_ok] at h4
    obtain ⟨dd', h9, -⟩ := h4
    rw [if_pos rfl, if_neg h0, bind_eq_ok] at h9
    obtain ⟨w, h9, -⟩ := h9
    rw [at!_eq_ok] at h9
    exact (List.getElem?_eq_some_iff.mp h9).1

end

/-- The sequential verifier can decode an answer exactly if every submitted block is processable, and
then it computes the unsealing of each; on every other answer it panics. -/
theorem C94_batch (H : Bytes → Bytes) (hH : ∀ x, (H x).length = 32) (params : PosPara)
    (p n c : Nat) (cfg : Config params p n c) (ht : 0 < params.vdeRounds) (hr : 0 < params.sealRounds)
    (hS : params.modeS = 0) (iv : Bytes) (idxs : List Nat)
    (blocks : List (List Bytes)) (hcnt : 6 ≤ params.cntS ∨ ∀ b ∈ blocks, b.length ≤ 65536) (befores : List Bytes) (deps : List (List (List Bytes))) :
    ((∀ i < blocks.length, ProcessableAt idxs blocks befores deps i) →
      batchUnseal H params idxs blocks befores deps (p : Int) iv =
        .ok ((List.range blocks.length).map (decodedAny H params p iv idxs blocks befores deps))) ∧
    ((∃ i < blocks.length, ¬ ProcessableAt idxs blocks befores deps i) →
      ∃ e, batchUnseal H params idxs blocks befores deps (p : Int) iv = .error e) := by
  have hT' : batchIdxsS params = .ok [] := by unfold batchIdxsS; rw [if_neg (by simp [hS])]; rfl
  have hsame : ∀ (i : Nat) (s : List (List Bytes)), s[i]? = blocks[i]? →
      batchBlock H params (p : Int) iv [] idxs befores deps i s =
        batchBlock H params (p : Int) iv [] idxs befores deps i blocks := by
    intro i s h
    unfold batchBlock
    have : at! s i = at! blocks i := by unfold at!; rw [h]
    rw [this]
  constructor
  · intro h
    unfold batchUnseal
    rw [hT', bind_ok]
    refine forUp_put (by simp) ?_
    intro i hi s hs hsi
    rw [hsame i s (by rw [hsi, List.getElem?_eq_getElem hi]),
      batchBlock_any hH cfg.keyOk ht hS hi (h i hi), bind_ok, List.getElem_map, List.getElem_range]
  · rintro ⟨i, hi, hn⟩
    cases hb : batchUnseal H params idxs blocks befores deps (p : Int) iv with
    | error e => exact ⟨e, rfl⟩
    | ok outs =>
      exfalso
      unfold batchUnseal at hb
      rw [hT', bind_ok] at hb
      obtain ⟨s, hs, s', hstep⟩ := forUp_step_inv
        (fun k (s : List (List Bytes)) => ∀ j, k ≤ j → s[j]? = blocks[j]?) (fun _ _ => rfl) (by
          intro k _ s s' hP hok j hj
          rw [bind_eq_ok] at hok
          obtain ⟨new, -, hput⟩ := hok
          have : s' = s.set k new := by
            unfold put! at hput
            split at hput
            · cases hput; rfl
            · cases hput
          rw [this, List.getElem?_set_ne (by omega)]
          exact hP j (by omega)) hb i hi
      rw [bind_eq_ok] at hstep
      obtain ⟨new, hnew, -⟩ := hstep
      rw [hsame i s (hs i (Nat.le_refl _))] at hnew
      exact hn (processable_of_ok hH hS hr hcnt hnew).2

/-- The parallel verifier decodes the processable blocks and leaves the others as submitted. -/
theorem C94_parallel (H : Bytes → Bytes) (hH : ∀ x, (H x).length = 32) (params : PosPara)
    (p n c : Nat) (cfg : Config params p n c) (ht : 0 < params.vdeRounds) (hr : 0 < params.sealRounds)
    (hS : params.modeS = 0) (iv : Bytes) (idxs : List Nat)
    (blocks : List (List Bytes)) (hcnt : 6 ≤ params.cntS ∨ ∀ b ∈ blocks, b.length ≤ 65536) (befores : List Bytes) (deps : List (List (List Bytes)))
    (workers : Nat) (sched : List Nat) (outs : List (List Bytes))
    (h : batchUnsealParallel H params idxs blocks befores deps (p : Int) iv workers sched = .ok (some outs)) :
    outs = (List.range blocks.length).map (fun i =>
      if ProcessableAt idxs blocks befores deps i then decodedAny H params p iv idxs blocks befores deps i
      else blocks.getD i []) := by
  obtain ⟨S', hS', hl, ho⟩ := parallel_result h
  apply List.ext_getElem?
  intro i
  by_cases hi : i < blocks.length
  · rw [ho i hi, List.getElem?_map, List.getElem?_range hi]
    simp only [Option.map_some, Option.some.injEq]
    by_cases hp : ProcessableAt idxs blocks befores deps i
    · rw [if_pos hp, batchBlock_any hH cfg.keyOk ht hS hi hp]
    · rw [if_neg hp]
      split
      · next b hb => exact absurd (processable_of_ok hH hS hr hcnt hb).2 hp
      · rw [List.getD_eq_getElem?_getD, List.getElem?_eq_getElem hi]
        rfl
  · rw [List.getElem?_eq_none (by omega), List.getElem?_eq_none (by simpa using hi)]

/-- The block starts, unit by unit, with the bytes of block `k` of the original. -/
def MatchesBlock (params : PosPara) (c : Nat) (origin : Bytes) (k : Nat) (b : List Bytes) : Prop :=
  ∀ j < c, ∃ u, b[j]? = some u ∧ params.unitL ≤ u.length ∧ ∀ t < params.unitL,
    u[t]? = some (origin[k * params.blockL + j * params.unitL + t]?.getD 0)

/-- The verdict of the sequential verifier on any answer whatsoever. -/
theorem C94_verdict (H Hs : Bytes → Bytes) (hH : ∀ x, (H x).length = 32) (params : PosPara)
    (p n c : Nat) (cfg : Config params p n c) (ht : 0 < params.vdeRounds) (hr : 0 < params.sealRounds)
    (hS : params.modeS = 0) (origin pubdata iv : Bytes)
    (hload : loadData pubdata = .ok ((p : Int), iv)) (leaves : List Bytes) (root : Bytes) (r : UInt8)
    (indices : List Nat) (resp : Response) (hcnt : 6 ≤ params.cntS ∨ ∀ b ∈ resp.blocks, b.length ≤ 65536) :
    verifierCheck H Hs params origin pubdata leaves root r indices resp 0 [] = .ok (some ()) ↔
      resp.hash = H (r :: (resp.blocks.map List.flatten).flatten) ∧
      verifyMerkleProof Hs resp.proof root indices leaves = .ok () ∧
      resp.blocks.length = indices.length ∧
      ∀ i < indices.length, ProcessableAt indices resp.blocks resp.beforeIds resp.dependBlocks i ∧
        MatchesBlock params c origin (indices.getD i 0)
          (decodedAny H params p iv indices resp.blocks resp.beforeIds resp.dependBlocks i) := by
  obtain ⟨b1, b2⟩ := C94_batch H hH params p n c cfg ht hr hS iv indices resp.blocks hcnt resp.beforeIds resp.dependBlocks
  rw [C74_accepted_iff H Hs params c cfg.unit_pos cfg.block]
  refine and_congr Iff.rfl (and_congr Iff.rfl ?_)
  constructor
  · rintro ⟨key, iv', outs, h1, h2, -, h3⟩
    rw [hload] at h1
    cases h1
    have h2 := h2 rfl
    have hall : ∀ i < resp.blocks.length, ProcessableAt indices resp.blocks resp.beforeIds resp.dependBlocks i := by
      by_contra hn
      push Not at hn
      obtain ⟨e, he⟩ := b2 hn
      rw [he] at h2
      cases h2
    rw [b1 hall] at h2
    cases h2
    have hle : resp.blocks.length ≤ indices.length := by
      by_contra hn
      have := (hall indices.length (by omega)).1
      omega
    have hge : indices.length ≤ resp.blocks.length := by
      by_contra hn
      obtain ⟨out, h4, -⟩ := h3 resp.blocks.length (by omega)
      rw [List.getElem?_eq_none (by simp)] at h4
      cases h4
    refine ⟨by omega, fun i hi => ⟨hall i (by omega), ?_⟩⟩
    obtain ⟨out, h4, h5⟩ := h3 i hi
    rw [List.getElem?_map, List.getElem?_range (by omega)] at h4
    cases h4
    rw [List.getD_eq_getElem?_getD, List.getElem?_eq_getElem hi]
    exact h5
  · rintro ⟨h1, h2⟩
    refine ⟨_, iv, _, hload, fun _ => b1 (fun i hi => (h2 i (by omega)).1), fun h => absurd rfl h, fun i hi => ?_⟩
    refine ⟨decodedAny H params p iv indices resp.blocks resp.beforeIds resp.dependBlocks i, ?_, ?_⟩
    · rw [List.getElem?_map, List.getElem?_range (by omega)]
      rfl
    · have := (h2 i hi).2
      rw [List.getD_eq_getElem?_getD, List.getElem?_eq_getElem hi] at this
      exact this

/-- The verdict of the parallel verifier on any answer, for every complete schedule. -/
theorem C94_verdict_parallel (H Hs : Bytes → Bytes) (hH : ∀ x, (H x).length = 32) (params : PosPara)
    (p n c : Nat) (cfg : Config params p n c) (ht : 0 < params.vdeRounds) (hr : 0 < params.sealRounds)
    (hS : params.modeS = 0) (origin pubdata iv : Bytes)
    (hload : loadData pubdata = .ok ((p : Int), iv)) (leaves : List Bytes) (root : Bytes) (r : UInt8)
    (indices : List Nat) (resp : Response) (hcnt : 6 ≤ params.cntS ∨ ∀ b ∈ resp.blocks, b.length ≤ 65536) (par : Nat) (sched : List Nat) (outs : List (List Bytes))
    (hpar : batchUnsealParallel H params indices resp.blocks resp.beforeIds resp.dependBlocks (p : Int) iv par sched =
      .ok (some outs)) :
    verifierCheck H Hs params origin pubdata leaves root r indices resp par sched = .ok (some ()) ↔
      resp.hash = H (r :: (resp.blocks.map List.flatten).flatten) ∧
      verifyMerkleProof Hs resp.proof root indices leaves = .ok () ∧
      indices.length ≤ resp.blocks.length ∧
      ∀ i < indices.length, MatchesBlock params c origin (indices.getD i 0)
        (if ProcessableAt indices resp.blocks resp.beforeIds resp.dependBlocks i then
          decodedAny H params p iv indices resp.blocks resp.beforeIds resp.dependBlocks i
        else resp.blocks.getD i []) := by
  have hT : parIdxsS params = .ok [] := by unfold parIdxsS; rw [if_neg (by simp [hS])]; rfl
  rw [C93_parallel_verdict H Hs params c cfg.unit_pos cfg.block origin pubdata leaves root r indices resp _ iv hload [] hT
    par sched outs hpar]
  refine and_congr Iff.rfl (and_congr Iff.rfl ?_)
  have hcmp : ∀ i (hi : i < resp.blocks.length), comparedBlock H params (p : Int) iv [] indices resp i resp.blocks[i] =
      (if ProcessableAt indices resp.blocks resp.beforeIds resp.dependBlocks i then
          decodedAny H params p iv indices resp.blocks resp.beforeIds resp.dependBlocks i
        else resp.blocks.getD i []) := by
    intro i hi
    unfold comparedBlock
    by_cases hp : ProcessableAt indices resp.blocks resp.beforeIds resp.dependBlocks i
    · rw [if_pos hp, batchBlock_any hH cfg.keyOk ht hS hi hp]
    · rw [if_neg hp]
      split
      · next b hb => exact absurd (processable_of_ok hH hS hr hcnt hb).2 hp
      · rw [List.getD_eq_getElem?_getD, List.getElem?_eq_getElem hi]
        rfl
  constructor
  · intro h
    have hge : indices.length ≤ resp.blocks.length := by
      by_contra hn
      obtain ⟨out, h4, -⟩ := h resp.blocks.length (by omega)
      rw [List.getElem?_eq_none (by simp)] at h4
      cases h4
    refine ⟨hge, fun i hi => ?_⟩
    obtain ⟨blk, h4, h5⟩ := h i hi
    rw [List.getElem?_eq_getElem (by omega)] at h4
    cases h4
    rw [hcmp i (by omega)] at h5
    rw [List.getD_eq_getElem?_getD (l := indices), List.getElem?_eq_getElem hi]
    exact h5
  · rintro ⟨h1, h2⟩ i hi
    refine ⟨_, List.getElem?_eq_getElem (by omega), ?_⟩
    rw [hcmp i (by omega)]
    have := h2 i hi
    rw [List.getD_eq_getElem?_getD (l := indices), List.getElem?_eq_getElem hi] at this
    exact this

/-- Irregular answers: block 0 has three units of lengths 1, 0 and 2 and can be processed; block 1 lacks
the identifier of the block before it; block 2 has dependency data with too few units; block 3 is empty. -/
example :
    let blocks : List (List Bytes) := [[[5], [], [6, 7]], [[1]], [[1], [2]], []]
    let deps : List (List (List Bytes)) := [[], [], [[[1]]]]
    ProcessableAt [0, 1, 0, 9] blocks [] deps 0 ∧ ¬ ProcessableAt [0, 1, 0, 9] blocks [] deps 1 ∧
    ¬ ProcessableAt [0, 1, 0, 9] blocks [] deps 2 ∧ ProcessableAt [0, 1, 0, 9] blocks [] deps 3 ∧
    ¬ ProcessableAt [0, 1, 0] blocks [] deps 3 := by
  decide +kernel

/-- A setting the theorems of this file apply to, with ten short dependencies as shipped. -/
example : (∃ p : Nat, (p : Int) = P_512 ∧ Config (toyParams 2 2 0 0 1 10 1) p 2 2) ∧ 0 < (toyParams 2 2 0 0 1 10 1).vdeRounds ∧
    0 < (toyParams 2 2 0 0 1 10 1).sealRounds ∧ (toyParams 2 2 0 0 1 10 1).modeS = 0 ∧ 6 ≤ (toyParams 2 2 0 0 1 10 1).cntS ∧
    ∀ x, (toyHash x).length = 32 :=
  ⟨toy_config 2 2 0 0 1 10 1 (by omega), by decide, by decide, rfl, by decide, toyHash_length⟩

end PoS
