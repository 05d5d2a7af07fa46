import Verif.Properties.AnyAnswer

/-
C94, continued: every answer, well-formed or not, when the short dependencies come from a table
(static modes).
-/

namespace PoS

/-- Block `i` of an answer can be decoded with the table `T` of short dependencies: there is a challenged index for
it, and if it has units at all, the table has a row for each of them that refers to submitted units only, dependency
data are submitted in which every block has at least as many units, and the identifier of the block before is
submitted, unless the index is 0. -/
def ProcessableWith (T : List (List Nat)) (idxs : List Nat) (blocks : List (List Bytes)) (befores : List Bytes)
    (deps : List (List (List Bytes))) (i : Nat) : Prop :=
  i < idxs.length ∧ (blocks.getD i [] ≠ [] →
    (blocks.getD i []).length ≤ T.length ∧
    (∀ j < (blocks.getD i []).length, ∀ x ∈ T.getD j [], x < (blocks.getD i []).length) ∧ i < deps.length ∧
    (∀ d ∈ deps.getD i [], (blocks.getD i []).length ≤ d.length) ∧
    (idxs.getD i 0 ≠ 0 → i < befores.length))

instance (T : List (List Nat)) (idxs : List Nat) (blocks : List (List Bytes)) (befores : List Bytes)
    (deps : List (List (List Bytes))) (i : Nat) : Decidable (ProcessableWith T idxs blocks befores deps i) := by
  unfold ProcessableWith
  infer_instance

/-- What block `i` of an answer decodes to: the unsealing of as many units as were submitted, the short dependencies
being those of the table. -/
def decodedWith (T : List (List Nat)) (H : Bytes → Bytes) (params : PosPara) (p : Nat) (iv : Bytes) (idxs : List Nat)
    (blocks : List (List Bytes)) (befores : List Bytes) (deps : List (List (List Bytes))) (i : Nat) : List Bytes :=
  let b := blocks.getD i []
  (sealingOf H params p b.length iv (fun _ _ => []) (fun _ j => T.getD j [])).unsealOne
    ((undelay p)^[params.vdeRounds]) (deps.getD i []) (if idxs.getD i 0 = 0 then iv else befores.getD i []) b

section

variable {H : Bytes → Bytes} (hH : ∀ x, (H x).length = 32) {params : PosPara} {p : Nat}
  (hk : KeyOk p params.unitPl) (ht : 0 < params.vdeRounds) (hS : params.modeS ≠ 0)

include hH hk ht hS in
/-- One unit, whatever the lengths of the submitted units and blocks. -/
theorem batchUnit_static {iv : Bytes} {T : List (List Nat)} {befores : List Bytes} {deps : List (List (List Bytes))}
    {m i idx2 j : Nat} {cur : List Bytes} {d : List (List Bytes)} (hT : j < T.length) (hrow : ∀ x ∈ T.getD j [], x < m) (hcur : cur.length = m) (hj : j < m)
    (hd : deps[i]? = some d) (hdl : ∀ x ∈ d, j < x.length) (hbe : idx2 ≠ 0 → i < befores.length)
    {long : Bytes → Nat → List Nat} :
    batchUnit H params (p : Int) iv T befores deps m i idx2 j cur =
      .ok ((sealingOf H params p m iv long (fun _ j => T.getD j [])).unstepUnit ((undelay p)^[params.vdeRounds]) d
        (if idx2 = 0 then iv else befores.getD i []) cur j) := by
  have hm0 : 0 < m := by omega
  have hdep : batchDependData H params T deps cur m i j =
      .ok ((d.map (fun d => d.getD j [])).flatten ++
        ((T.getD j []).map (fun i => cur.getD i [])).flatten) := by
    unfold batchDependData
    rw [at!_eq_ok.mpr hd, bind_ok]
    have h1 : forUp d.length (fun k res => do
        let b ← at! d k
        let u ← at! b j
        pure (res ++ u)) ([] : Bytes) = .ok ((d.map (fun d => d.getD j [])).flatten) := by
      rw [forUp_at_eq_forEach d (fun b res => do
        let u ← at! b j
        pure (res ++ u)) []]
      exact forEach_gather (g := fun b => at! b j) (fun x hx => getD_of_at (hdl x hx)) []
    rw [h1, bind_ok, if_pos hS, getD_of_at (d := []) hT, bind_ok]
    exact gatherUnits hcur hrow _
  unfold batchUnit
  rw [hdep, bind_ok]
  generalize hdd : (d.map (fun d => d.getD j [])).flatten ++
    ((T.getD j []).map (fun i => cur.getD i [])).flatten = dd
  have h2 : (if j = 0 then
      if idx2 = 0 then pure (dd ++ iv)
      else do
        let before ← at! befores i
        pure (dd ++ before)
    else pure dd : R Bytes) = .ok ((sealingOf H params p m iv long (fun _ j => T.getD j [])).maskInput d
        (if idx2 = 0 then iv else befores.getD i []) cur j) := by
    unfold Sealing.maskInput
    rw [show (sealingOf H params p m iv long (fun _ j => T.getD j [])).short = (fun _ j => T.getD j []) from rfl, hdd]
    by_cases h0 : j = 0
    · rw [if_pos h0, if_pos h0]
      by_cases hk0 : idx2 = 0
      · rw [if_pos hk0, if_pos hk0]; rfl
      · rw [if_neg hk0, if_neg hk0, getD_of_at (d := []) (hbe hk0), bind_ok]; rfl
    · rw [if_neg h0, if_neg h0, List.append_nil]; rfl
  rw [h2, bind_ok]
  simp only []
  generalize hmi : (sealingOf H params p m iv long (fun _ j => T.getD j [])).maskInput d
    (if idx2 = 0 then iv else befores.getD i []) cur j = mi
  rw [getD_of_at (d := []) (by omega), bind_ok, vdeInv_any hk.prime hk.mod4 ht _ hk.fits]
  have hlt : (undelay p)^[params.vdeRounds] (leNat (cur.getD j [])) < p := by
    obtain ⟨t, e⟩ : ∃ s, params.vdeRounds = s + 1 := ⟨params.vdeRounds - 1, by omega⟩
    rw [e, Function.iterate_succ_apply']
    exact undelay_lt hk.prime _
  have hmle := hash_le hH hk mi
  obtain ⟨r, h3, h4, h5⟩ := modsub_spec (u := leBytes params.unitPl ((undelay p)^[params.vdeRounds] (leNat (cur.getD j []))))
    (h := H mi) hk.prime.pos (by rw [leBytes_length]; exact hk.fits) (by omega)
  rw [leNat_leBytes (lt_of_lt_of_le hlt hk.fits)] at h5
  rw [leBytes_length] at h4
  rw [h3, bind_ok, put!_of_lt (by omega), eq_leBytes h4 h5]
  unfold Sealing.unstepUnit
  rw [hmi]
  rfl

include hH hk ht hS in
theorem batchBlock_static {iv : Bytes} {T : List (List Nat)} {idxs : List Nat} {blocks : List (List Bytes)}
    {befores : List Bytes} {deps : List (List (List Bytes))} {i : Nat} (hi : i < blocks.length)
    (hpr : ProcessableWith T idxs blocks befores deps i) :
    batchBlock H params (p : Int) iv T idxs befores deps i blocks =
      .ok (decodedWith T H params p iv idxs blocks befores deps i) := by
  obtain ⟨h1, h2⟩ := hpr
  unfold batchBlock decodedWith
  rw [getD_of_at (d := 0) h1, bind_ok, getD_of_at (d := []) hi, bind_ok]
  simp only []
  generalize blocks.getD i [] = b at h2
  by_cases hb : b = []
  · subst hb
    exact unsealLoop_any (S := sealingOf H params p 0 iv (fun _ _ => []) (fun _ j => T.getD j []))
      (F := fun j s => batchUnit H params (p : Int) iv T befores deps 0 i (idxs.getD i 0) j s)
      (fun j hj => absurd hj (Nat.not_lt_zero _)) rfl
  · obtain ⟨h3, h3', h4, h5, h6⟩ := h2 hb
    exact unsealLoop_any (S := sealingOf H params p b.length iv (fun _ _ => []) (fun _ j => T.getD j []))
      (F := fun j s => batchUnit H params (p : Int) iv T befores deps b.length i (idxs.getD i 0) j s)
      (fun j hj s hs => batchUnit_static hH hk ht hS (lt_of_lt_of_le hj h3) (h3' j hj) hs hj (by
        rw [List.getElem?_eq_getElem h4, List.getD_eq_getElem?_getD, List.getElem?_eq_getElem h4]
        rfl) (fun x hx => lt_of_lt_of_le hj (h5 x hx)) h6) rfl

include hS in
/-- If a block is decoded, it was processable. -/
theorem processable_static (hr : 0 < params.sealRounds) {key : Int} {iv : Bytes} {T : List (List Nat)}
    {idxs : List Nat} {blocks : List (List Bytes)}
    {befores : List Bytes} {deps : List (List (List Bytes))} {i : Nat} {b : List Bytes}
    (h : batchBlock H params key iv T idxs befores deps i blocks = .ok b) :
    i < blocks.length ∧ ProcessableWith T idxs blocks befores deps i := by
  unfold batchBlock at h
  rw [bind_eq_ok] at h
  obtain ⟨idx2, h1, h⟩ := h
  rw [bind_eq_ok] at h
  obtain ⟨cur, h2, h⟩ := h
  rw [at!_eq_ok] at h1 h2
  have hi1 : i < idxs.length := (List.getElem?_eq_some_iff.mp h1).1
  have hi2 : i < blocks.length := (List.getElem?_eq_some_iff.mp h2).1
  refine ⟨hi2, hi1, ?_⟩
  rw [List.getD_eq_getElem?_getD, h2, List.getD_eq_getElem?_getD, List.getD_eq_getElem?_getD, h1]
  simp only [Option.getD_some]
  intro hne
  have hpos : 0 < cur.length := List.length_pos_of_ne_nil hne
  obtain ⟨s1, -, s2, h3⟩ := forUp_step_inv (fun _ _ => True) trivial (fun _ _ _ _ _ _ => trivial) h 0 hr
  have hstep : ∀ j < cur.length, ∃ s s', batchUnit H params key iv T befores deps cur.length i idx2 (cur.length - 1 - j) s =
      .ok s' := by
    intro j hj
    obtain ⟨s, -, s', h4⟩ := forUp_step_inv (fun _ _ => True) trivial (fun _ _ _ _ _ _ => trivial) h3 j hj
    rw [sub!_of_le (by omega), bind_ok, sub!_of_le (by omega), bind_ok] at h4
    exact ⟨s, s', h4⟩
  -- the first step looks at the last unit
  obtain ⟨s, s', h4⟩ := hstep 0 hpos
  unfold batchUnit at h4
  rw [bind_eq_ok] at h4
  obtain ⟨dd, h5, -⟩ := h4
  unfold batchDependData at h5
  rw [bind_eq_ok] at h5
  obtain ⟨d, h6, h5⟩ := h5
  rw [bind_eq_ok] at h5
  obtain ⟨res, h7, h5⟩ := h5
  rw [if_pos hS, bind_eq_ok] at h5
  obtain ⟨ans, h8, -⟩ := h5
  rw [at!_eq_ok] at h8
  rw [at!_eq_ok] at h6
  have hlen : ∀ j < cur.length, ∃ s s', s.length = cur.length ∧
      batchUnit H params key iv T befores deps cur.length i idx2 (cur.length - 1 - j) s = .ok s' := by
    intro j hj
    have hput : ∀ j' (s s' : List Bytes), batchUnit H params key iv T befores deps cur.length i idx2 j' s = .ok s' →
        s'.length = s.length := by
      intro j' s s' hu
      unfold batchUnit at hu
      simp only [bind_eq_ok] at hu
      obtain ⟨_, -, _, -, _, -, _, -, hu⟩ := hu
      unfold put! at hu
      split at hu
      · rw [← Except.ok.inj hu, List.length_set]
      · cases hu
    have hinner : ∀ (s s' : List Bytes), forUp cur.length (fun idx1 s => do
        let a ← sub! cur.length 1
        let idx1 ← sub! a idx1
        batchUnit H params key iv T befores deps cur.length i idx2 idx1 s) s = .ok s' → s'.length = s.length := by
      intro s s' hu
      refine forUp_inv (fun _ t => t.length = s.length) rfl ?_ hu
      intro k hk' t t' e1 e2
      rw [sub!_of_le (by omega), bind_ok, sub!_of_le (by omega), bind_ok] at e2
      rw [hput _ _ _ e2, e1]
    obtain ⟨s1, hs1, s2, h3⟩ := forUp_step_inv (fun _ s => s.length = cur.length) rfl
      (fun _ _ s s' e1 e2 => by rw [hinner _ _ e2, e1]) h 0 hr
    obtain ⟨s, hs, s', h4⟩ := forUp_step_inv (fun _ s => s.length = cur.length) hs1
      (fun k hk' t t' e1 e2 => by
        rw [sub!_of_le (by omega), bind_ok, sub!_of_le (by omega), bind_ok] at e2
        rw [hput _ _ _ e2, e1]) h3 j hj
    rw [sub!_of_le (by omega), bind_ok, sub!_of_le (by omega), bind_ok] at h4
    exact ⟨s, s', hs, h4⟩
  refine ⟨?_, ?_, (List.getElem?_eq_some_iff.mp h6).1, ?_, ?_⟩
  · have := (List.getElem?_eq_some_iff.mp h8).1
    omega
  · intro j hj x hx
    obtain ⟨s, s', hs, h4⟩ := hlen (cur.length - 1 - j) (by omega)
    rw [show cur.length - 1 - (cur.length - 1 - j) = j by omega] at h4
    unfold batchUnit at h4
    rw [bind_eq_ok] at h4
    obtain ⟨dd, h5, -⟩ := h4
    unfold batchDependData at h5
    rw [bind_eq_ok] at h5
    obtain ⟨d', -, h5⟩ := h5
    rw [bind_eq_ok] at h5
    obtain ⟨res', -, h5⟩ := h5
    rw [if_pos hS, bind_eq_ok] at h5
    obtain ⟨row, h8', h5⟩ := h5
    rw [at!_eq_ok] at h8'
    rw [List.getD_eq_getElem?_getD, h8'] at hx
    change x ∈ row at hx
    obtain ⟨k, hk', rfl⟩ := List.getElem_of_mem hx
    rw [← forUp_at_eq_forEach] at h5
    obtain ⟨u, -, u', h9⟩ := forUp_step_inv (fun _ _ => True) trivial (fun _ _ _ _ _ _ => trivial) h5 k hk'
    rw [at!_of_lt hk', bind_ok, bind_eq_ok] at h9
    obtain ⟨w, h9, -⟩ := h9
    rw [at!_eq_ok] at h9
    have := (List.getElem?_eq_some_iff.mp h9).1
    omega
  · intro x hx
    rw [h6] at hx
    change x ∈ d at hx
    obtain ⟨k, hk, rfl⟩ := List.getElem_of_mem hx
    obtain ⟨u, -, u', h9⟩ := forUp_step_inv (fun _ _ => True) trivial (fun _ _ _ _ _ _ => trivial) h7 k hk
    rw [at!_of_lt hk, bind_ok, bind_eq_ok] at h9
    obtain ⟨w, h9, -⟩ := h9
    rw [at!_eq_ok] at h9
    have := (List.getElem?_eq_some_iff.mp h9).1
    omega
  · intro h0
    obtain ⟨s, s', h4⟩ := hstep (cur.length - 1) (by omega)
    rw [Nat.sub_self] at h4
    unfold batchUnit at h4
    rw [bind_eq_ok] at h4
    obtain ⟨dd, -, h4⟩ := h4
    rw [bind_eq_ok] at h4
    obtain ⟨dd', h9, -⟩ := h4
    rw [if_pos rfl, if_neg h0, bind_eq_ok] at h9
    obtain ⟨w, h9, -⟩ := h9
    rw [at!_eq_ok] at h9
    exact (List.getElem?_eq_some_iff.mp h9).1

end

/-- Static short dependencies: the sequential verifier can decode an answer exactly if every submitted block is processable, and
then it computes the unsealing of each; on every other answer it panics. -/
theorem C94_static_batch (H : Bytes → Bytes) (hH : ∀ x, (H x).length = 32) (params : PosPara)
    (p n c : Nat) (cfg : Config params p n c) (ht : 0 < params.vdeRounds) (hr : 0 < params.sealRounds)
    (hS : params.modeS ≠ 0) (T : List (List Nat)) (hT : batchIdxsS params = .ok T) (iv : Bytes) (idxs : List Nat)
    (blocks : List (List Bytes)) (befores : List Bytes) (deps : List (List (List Bytes))) :
    ((∀ i < blocks.length, ProcessableWith T idxs blocks befores deps i) →
      batchUnseal H params idxs blocks befores deps (p : Int) iv =
        .ok ((List.range blocks.length).map (decodedWith T H params p iv idxs blocks befores deps))) ∧
    ((∃ i < blocks.length, ¬ ProcessableWith T idxs blocks befores deps i) →
      ∃ e, batchUnseal H params idxs blocks befores deps (p : Int) iv = .error e) := by
  have hsame : ∀ (i : Nat) (s : List (List Bytes)), s[i]? = blocks[i]? →
      batchBlock H params (p : Int) iv T idxs befores deps i s =
        batchBlock H params (p : Int) iv T idxs befores deps i blocks := by
    intro i s h
    unfold batchBlock
    have : at! s i = at! blocks i := by unfold at!; rw [h]
    rw [this]
  constructor
  · intro h
    unfold batchUnseal
    rw [hT, bind_ok]
    refine forUp_put (by simp) ?_
    intro i hi s hs hsi
    rw [hsame i s (by rw [hsi, List.getElem?_eq_getElem hi]),
      batchBlock_static hH cfg.keyOk ht hS hi (h i hi), bind_ok, List.getElem_map, List.getElem_range]
  · rintro ⟨i, hi, hn⟩
    cases hb : batchUnseal H params idxs blocks befores deps (p : Int) iv with
    | error e => exact ⟨e, rfl⟩
    | ok outs =>
      exfalso
      unfold batchUnseal at hb
      rw [hT, bind_ok] at hb
      obtain ⟨s, hs, s', hstep⟩ := forUp_step_inv
        (fun k (s : List (List Bytes)) => ∀ j, k ≤ j → s[j]? = blocks[j]?) (fun _ _ => rfl) (by
          intro k _ s s' hP hok j hj
          rw [bind_eq_ok] at hok
          obtain ⟨new, -, hput⟩ := hok
          have : s' = s.set k new := by
            unfold put! at hput
            split at hput
            · cases hput; rfl
            · cases hput
          rw [this, List.getElem?_set_ne (by omega)]
          exact hP j (by omega)) hb i hi
      rw [bind_eq_ok] at hstep
      obtain ⟨new, hnew, -⟩ := hstep
      rw [hsame i s (hs i (Nat.le_refl _))] at hnew
      exact hn (processable_static hS hr hnew).2

/-- Static short dependencies: the parallel verifier decodes the processable blocks and leaves the others as submitted. -/
theorem C94_static_parallel (H : Bytes → Bytes) (hH : ∀ x, (H x).length = 32) (params : PosPara)
    (p n c : Nat) (cfg : Config params p n c) (ht : 0 < params.vdeRounds) (hr : 0 < params.sealRounds)
    (hS : params.modeS ≠ 0) (T : List (List Nat)) (hT : parIdxsS params = .ok T) (iv : Bytes) (idxs : List Nat)
    (blocks : List (List Bytes)) (befores : List Bytes) (deps : List (List (List Bytes)))
    (workers : Nat) (sched : List Nat) (outs : List (List Bytes))
    (h : batchUnsealParallel H params idxs blocks befores deps (p : Int) iv workers sched = .ok (some outs)) :
    outs = (List.range blocks.length).map (fun i =>
      if ProcessableWith T idxs blocks befores deps i then decodedWith T H params p iv idxs blocks befores deps i
      else blocks.getD i []) := by
  obtain ⟨S', hS', hl, ho⟩ := parallel_result h
  rw [hT] at hS'
  cases hS'
  apply List.ext_getElem?
  intro i
  by_cases hi : i < blocks.length
  · rw [ho i hi, List.getElem?_map, List.getElem?_range hi]
    simp only [Option.map_some, Option.some.injEq]
    by_cases hp : ProcessableWith T idxs blocks befores deps i
    · rw [if_pos hp, batchBlock_static hH cfg.keyOk ht hS hi hp]
    · rw [if_neg hp]
      split
      · next b hb => exact absurd (processable_static hS hr hb).2 hp
      · rw [List.getD_eq_getElem?_getD, List.getElem?_eq_getElem hi]
        rfl
  · rw [List.getElem?_eq_none (by omega), List.getElem?_eq_none (by simpa using hi)]

/-- Static short dependencies: the verdict of the sequential verifier on any answer whatsoever. -/
theorem C94_static_verdict (H Hs : Bytes → Bytes) (hH : ∀ x, (H x).length = 32) (params : PosPara)
    (p n c : Nat) (cfg : Config params p n c) (ht : 0 < params.vdeRounds) (hr : 0 < params.sealRounds)
    (hS : params.modeS ≠ 0) (T : List (List Nat)) (hT : batchIdxsS params = .ok T) (origin pubdata iv : Bytes)
    (hload : loadData pubdata = .ok ((p : Int), iv)) (leaves : List Bytes) (root : Bytes) (r : UInt8)
    (indices : List Nat) (resp : Response) :
    verifierCheck H Hs params origin pubdata leaves root r indices resp 0 [] = .ok (some ()) ↔
      resp.hash = H (r :: (resp.blocks.map List.flatten).flatten) ∧
      verifyMerkleProof Hs resp.proof root indices leaves = .ok () ∧
      resp.blocks.length = indices.length ∧
      ∀ i < indices.length, ProcessableWith T indices resp.blocks resp.beforeIds resp.dependBlocks i ∧
        MatchesBlock params c origin (indices.getD i 0)
          (decodedWith T H params p iv indices resp.blocks resp.beforeIds resp.dependBlocks i) := by
  obtain ⟨b1, b2⟩ := C94_static_batch H hH params p n c cfg ht hr hS T hT iv indices resp.blocks resp.beforeIds resp.dependBlocks
  rw [C74_accepted_iff H Hs params c cfg.unit_pos cfg.block]
  refine and_congr Iff.rfl (and_congr Iff.rfl ?_)
  constructor
  · rintro ⟨key, iv', outs, h1, h2, -, h3⟩
    rw [hload] at h1
    cases h1
    have h2 := h2 rfl
    have hall : ∀ i < resp.blocks.length, ProcessableWith T indices resp.blocks resp.beforeIds resp.dependBlocks i := by
      by_contra hn
      push Not at hn
      obtain ⟨e, he⟩ := b2 hn
      rw [he] at h2
      cases h2
    rw [b1 hall] at h2
    cases h2
    have hle : resp.blocks.length ≤ indices.length := by
      by_contra hn
      have := (hall indices.length (by omega)).1
      omega
    have hge : indices.length ≤ resp.blocks.length := by
      by_contra hn
      obtain ⟨out, h4, -⟩ := h3 resp.blocks.length (by omega)
      rw [List.getElem?_eq_none (by simp)] at h4
      cases h4
    refine ⟨by omega, fun i hi => ⟨hall i (by omega), ?_⟩⟩
    obtain ⟨out, h4, h5⟩ := h3 i hi
    rw [List.getElem?_map, List.getElem?_range (by omega)] at h4
    cases h4
    rw [List.getD_eq_getElem?_getD, List.getElem?_eq_getElem hi]
    exact h5
  · rintro ⟨h1, h2⟩
    refine ⟨_, iv, _, hload, fun _ => b1 (fun i hi => (h2 i (by omega)).1), fun h => absurd rfl h, fun i hi => ?_⟩
    refine ⟨decodedWith T H params p iv indices resp.blocks resp.beforeIds resp.dependBlocks i, ?_, ?_⟩
    · rw [List.getElem?_map, List.getElem?_range (by omega)]
      rfl
    · have := (h2 i hi).2
      rw [List.getD_eq_getElem?_getD, List.getElem?_eq_getElem hi] at this
      exact this

/-- Static short dependencies: the verdict of the parallel verifier on any answer, for every complete schedule. -/
theorem C94_static_verdict_parallel (H Hs : Bytes → Bytes) (hH : ∀ x, (H x).length = 32) (params : PosPara)
    (p n c : Nat) (cfg : Config params p n c) (ht : 0 < params.vdeRounds) (hr : 0 < params.sealRounds)
    (hS : params.modeS ≠ 0) (T : List (List Nat)) (hT : parIdxsS params = .ok T) (origin pubdata iv : Bytes)
    (hload : loadData pubdata = .ok ((p : Int), iv)) (leaves : List Bytes) (root : Bytes) (r : UInt8)
    (indices : List Nat) (resp : Response) (par : Nat) (sched : List Nat) (outs : List (List Bytes))
    (hpar : batchUnsealParallel H params indices resp.blocks resp.beforeIds resp.dependBlocks (p : Int) iv par sched =
      .ok (some outs)) :
    verifierCheck H Hs params origin pubdata leaves root r indices resp par sched = .ok (some ()) ↔
      resp.hash = H (r :: (resp.blocks.map List.flatten).flatten) ∧
      verifyMerkleProof Hs resp.proof root indices leaves = .ok () ∧
      indices.length ≤ resp.blocks.length ∧
      ∀ i < indices.length, MatchesBlock params c origin (indices.getD i 0)
        (if ProcessableWith T indices resp.blocks resp.beforeIds resp.dependBlocks i then
          decodedWith T H params p iv indices resp.blocks resp.beforeIds resp.dependBlocks i
        else resp.blocks.getD i []) := by
  rw [C93_parallel_verdict H Hs params c cfg.unit_pos cfg.block origin pubdata leaves root r indices resp _ iv hload T hT
    par sched outs hpar]
  refine and_congr Iff.rfl (and_congr Iff.rfl ?_)
  have hcmp : ∀ i (hi : i < resp.blocks.length), comparedBlock H params (p : Int) iv T indices resp i resp.blocks[i] =
      (if ProcessableWith T indices resp.blocks resp.beforeIds resp.dependBlocks i then
          decodedWith T H params p iv indices resp.blocks resp.beforeIds resp.dependBlocks i
        else resp.blocks.getD i []) := by
    intro i hi
    unfold comparedBlock
    by_cases hp : ProcessableWith T indices resp.blocks resp.beforeIds resp.dependBlocks i
    · rw [if_pos hp, batchBlock_static hH cfg.keyOk ht hS hi hp]
    · rw [if_neg hp]
      split
      · next b hb => exact absurd (processable_static hS hr hb).2 hp
      · rw [List.getD_eq_getElem?_getD, List.getElem?_eq_getElem hi]
        rfl
  constructor
  · intro h
    have hge : indices.length ≤ resp.blocks.length := by
      by_contra hn
      obtain ⟨out, h4, -⟩ := h resp.blocks.length (by omega)
      rw [List.getElem?_eq_none (by simp)] at h4
      cases h4
    refine ⟨hge, fun i hi => ?_⟩
    obtain ⟨blk, h4, h5⟩ := h i hi
    rw [List.getElem?_eq_getElem (by omega)] at h4
    cases h4
    rw [hcmp i (by omega)] at h5
    rw [List.getD_eq_getElem?_getD (l := indices), List.getElem?_eq_getElem hi]
    exact h5
  · rintro ⟨h1, h2⟩ i hi
    refine ⟨_, List.getElem?_eq_getElem (by omega), ?_⟩
    rw [hcmp i (by omega)]
    have := h2 i hi
    rw [List.getD_eq_getElem?_getD (l := indices), List.getElem?_eq_getElem hi] at this
    exact this

/-- Blocks of three units, one static short dependency: an answer block of two units can be processed, one of a single
unit or of four units cannot, nor one without the identifier of the block before. -/
example :
    let T := [[1], [0], [1]]
    batchIdxsS (toyParams 2 3 0 1 1 1 1) = .ok T ∧
    ProcessableWith T [0, 0] [[[5], [6, 7]], [[1]]] [] [[], []] 0 ∧ ¬ ProcessableWith T [0, 0] [[[5], [6, 7]], [[1]]] [] [[], []] 1 ∧
    ¬ ProcessableWith T [0] [[[5], [6], [7], [8]]] [] [[]] 0 ∧ ¬ ProcessableWith T [1] [[[5], [6]]] [] [[]] 0 ∧
    ProcessableWith T [1] [[[5], [6]]] [[9]] [[]] 0 := by
  decide +kernel

/-- The theorems of this file in that setting, for an answer with one irregular block. -/
example (p : Nat) (hp : (p : Int) = P_512) (cfg : Config (toyParams 2 3 0 1 1 1 1) p 2 3) :=
  (C94_static_batch toyHash toyHash_length (toyParams 2 3 0 1 1 1 1) p 2 3 cfg (by decide) (by decide) (by decide)
    [[1], [0], [1]] (by decide +kernel) [7] [0] [[[5], [6, 7]]] [] [[]]).1 (by decide)

example : ∃ p : Nat, (p : Int) = P_512 ∧ Config (toyParams 2 3 0 1 1 1 1) p 2 3 := toy_config 2 3 0 1 1 1 1 (by norm_num)

end PoS
