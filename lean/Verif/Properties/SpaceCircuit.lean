import Verif.Properties.Circuits

/-
C45, C46: the circuit of the proof of space.
-/

namespace PoS

set_option linter.unusedSectionVars false

variable {q : Nat}

theorem at!_map_opt (b : Bool) (xs : List (ZMod q)) (i : Nat) (h : i < xs.length) :
    at! (xs.map (opt b)) i = .ok (opt b (xs[i]?.getD 0)) := by
  simp only [at!_eq_ok, List.getElem?_map, List.getElem?_eq_getElem h, Option.map_some, Option.getD_some]

/-- Running the space circuit, both when proving and (with arbitrary values) in setup. -/
theorem spaceCircuit_run (b : Bool) {n ySize : Nat} (h1 : 1 ≤ n) (hny : n ≤ ySize) (h256 : ySize ≤ 256)
    {dcs hcs : List (ZMod q)} (hd : dcs.length = 10) (hh : hcs.length = 10) (key m : ZMod q) (xs yns : List (ZMod q))
    (hlen : yns.length = xs.length) (c u : Nat → ZMod q) (β : Nat → Nat → Bool) (r0 : ZMod q) (k : Nat → ZMod q)
    (hon : b = false → ∀ i < xs.length, c i = 0 ∧ u i = 1 ∧
      (∀ j < ySize, β i j = (dfSeq 5 dcs (key + xs[i]?.getD 0) m MIMC5_DF_ROUNDS).1.val.testBit j) ∧
      (bnat (β i) ySize : ZMod q) = (dfSeq 5 dcs (key + xs[i]?.getD 0) m MIMC5_DF_ROUNDS).1 ∧
      (∀ j < n, β i j = (yns[i]?.getD 0).val.testBit j))
    (hsum : ∀ i < xs.length, c i + u i * (bnat (β i) n : ZMod q) = yns[i]?.getD 0)
    (hr0 : b = false → r0 = key)
    (hk : b = false → ∀ i, k i =
      resSeq (fun x k => hashSeq 5 hcs x k MIMC5_HASH_ROUNDS + k) (fun i => xs[i]?.getD 0) k r0 i) :
    Run (spaceCircuit n ySize (opt b key) (xs.map (opt b)) (opt b m) dcs (yns.map (opt b)) hcs) (CS.init _ b) ([], [])
      ([key, m] ++ yns ++ if 0 < xs.length then
        [resSeq (fun x k => hashSeq 5 hcs x k MIMC5_HASH_ROUNDS + k) (fun i => xs[i]?.getD 0) k r0 xs.length] else [])
      (fun _ _ _ => True) := by
  unfold spaceCircuit
  rw [if_neg (by simp [hd, MIMC5_DF_ROUNDS]), if_neg (by simp [hh, MIMC5_HASH_ROUNDS])]
  rw [List.append_assoc]
  refine Run.bind (q := m :: (yns ++ _)) (Run.newInput (good_init b) key (fun h => opt_some h)) rfl ?_
  rintro kv s1 a1 o1 ⟨-, h1k⟩
  have m1 : s1.setup = b := by rw [o1.mode]; rfl
  refine Run.bind (q := yns ++ _) (Run.newInput o1.good m (fun h => opt_some (by rw [← m1]; exact h))) rfl ?_
  rintro mv s2 a2 o2 -
  have m2 : s2.setup = b := by rw [o2.mode, m1]
  have hloop := Run.synUp (n := (xs.map (opt b)).length)
    (f := fun i (_ : Unit) => spaceInput n ySize (opt b key) kv (opt b m) (xs.map (opt b)) dcs (yns.map (opt b)) i)
    (t := ()) o2.good (fun i => [yns[i]?.getD 0]) (fun _ _ _ _ => True) trivial
    (fun i hi t s' a' o _ => by
      rw [List.length_map] at hi
      have mm : s'.setup = b := by rw [o.mode, m2]
      rw [← mm]
      refine (spaceInput_run o.good h1 hny h256 hd (o.mono _ _ (o2.mono _ _ h1k)) (x := xs[i]?.getD 0) (yn := yns[i]?.getD 0)
        (r := m) (by rw [mm]; exact at!_map_opt b xs i hi) (by rw [mm]; exact at!_map_opt b yns i (by omega)) (fun _ => rfl)
        (c i) (u i) (β i) (fun hs => hon (by rw [← mm]; exact hs) i hi) (hsum i hi)).weaken (fun _ _ _ _ _ => trivial))
  have hpub : (List.range (xs.map (opt b)).length).flatMap (fun i => [yns[i]?.getD 0]) = yns := by
    rw [List.length_map, ← hlen]
    have hfm : ∀ l : List Nat, l.flatMap (fun i => [yns[i]?.getD 0]) = l.map (fun i => yns[i]?.getD 0) := by
      intro l; induction l with
      | nil => rfl
      | cons a l ih => rw [List.flatMap_cons, ih]; rfl
    rw [hfm]
    apply List.ext_getElem (by simp)
    intro i h1 h2
    simp [List.getElem?_eq_getElem h2]
  rw [hpub] at hloop
  refine Run.bind hloop rfl ?_
  intro _ s3 a3 o3 _
  have m3 : s3.setup = b := by rw [o3.mode, m2]
  refine Run.bind0 (Run.newWit o3.good r0 (fun hs => by
    rw [opt_some (by rw [← m3]; exact hs), hr0 (by rw [← m3]; exact hs)])) ?_
  intro res s4 a4 o4 h4
  have m4 : s4.setup = b := by rw [o4.mode, m3]
  have hkey : opt b key = opt b r0 := by
    cases b with
    | true => rfl
    | false => rw [hr0 rfl]
  have hl := hashLoop_run (e := 5) (rounds := MIMC5_HASH_ROUNDS) (mimc5HashRound_run hcs) (by decide) (by rw [hh]; decide) o4.good
    (xs := xs.map (opt b)) (x := fun i => xs[i]?.getD 0) (k := k) (r := r0) (res := ⟨res, opt b key⟩)
    (fun i hi => by rw [m4]; exact at!_map_opt b xs i (by simpa using hi)) (fun hs => hk (by rw [← m4]; exact hs))
    ⟨h4, by rw [m4]; exact hkey⟩
  rw [List.length_map] at hl ⊢
  exact Run.last hl (fun _ => rfl) (fun _ _ _ _ _ => trivial)

/-! ### C46 -/

/-- Whatever the key, the message, the claimed images and the claimed hash: the constraint system
of the space circuit for that number of images (at least one) has a satisfying assignment with
exactly these public inputs.  In particular images without a preimage are "proved" to have one. -/
theorem C46_every_statement_provable {n ySize : Nat} (h1 : 1 ≤ n) (hny : n ≤ ySize) (h256 : ySize ≤ 256)
    {dcs hcs : List (ZMod q)} (hd : dcs.length = 10) (hh : hcs.length = 10) (count : Nat) (hc : 0 < count) :
    ∃ s, constructCircuit n ySize count dcs hcs = .ok ((), s) ∧ s.nInst = count + 3 ∧
      ∀ (key m xHash : ZMod q) (yns : List (ZMod q)), yns.length = count →
        ∃ w, w.length = s.nWit ∧ Satisfies s.cons ([key, m] ++ yns ++ [xHash], w) := by
  have hrun := fun (key m xHash : ZMod q) (yns : List (ZMod q)) (hl : yns.length = count) =>
    run_setup (spaceCircuit_run (q := q) true h1 hny h256 hd hh key m (List.replicate count 0) yns (by simp [hl])
      (fun i => yns[i]?.getD 0) (fun _ => 1) (fun _ _ => false)
      (xHash - resSeq (fun x k => hashSeq 5 hcs x k MIMC5_HASH_ROUNDS + k) (fun i => (List.replicate count (0 : ZMod q))[i]?.getD 0)
        (fun _ => 0) 0 count) (fun _ => 0) (fun h => by cases h)
      (fun i _ => by rw [bnat_false]; simp) (fun h => by cases h) (fun h => by cases h))
  have hnone : ∀ xs : List (ZMod q), xs.length = count → xs.map (opt true) = List.replicate count none := by
    intro xs hx
    rw [← hx, List.eq_replicate_iff]
    exact ⟨by simp, fun b hb => by obtain ⟨x, -, rfl⟩ := List.mem_map.mp hb; rfl⟩
  obtain ⟨s, w, e, hn, -⟩ := hrun 0 0 0 (List.replicate count 0) (by simp)
  rw [hnone _ (by simp)] at e
  refine ⟨s, e, by rw [hn]; simp [hc], fun key m xHash yns hl => ?_⟩
  obtain ⟨s', w, e', hn', hw, hs, -⟩ := hrun key m xHash yns hl
  rw [hnone _ (by simp), hnone _ hl] at e'
  obtain rfl : s = s' := by
    have := e.symm.trans e'
    injection this with this
    exact (Prod.mk.inj this).2
  refine ⟨w, hw, ?_⟩
  rw [List.length_replicate, if_pos hc, resSeq_sum] at hs
  rw [resSeq_sum] at hs
  convert hs using 3
  ring_nf

/-- One bit-length, a claimed image and a hash: nothing about them is needed. -/
example : ∃ s : CS (ZMod 103), constructCircuit 3 8 2 (List.replicate 10 1) (List.replicate 10 2) = .ok ((), s) ∧
    ∃ w, Satisfies s.cons ([5, 6] ++ [7, 99] ++ [11], w) := by
  obtain ⟨s, e, -, h⟩ := C46_every_statement_provable (q := 103) (n := 3) (ySize := 8) (by omega) (by omega) (by omega)
    (dcs := List.replicate 10 1) (hcs := List.replicate 10 2) rfl rfl 2 (by omega)
  obtain ⟨w, -, hs⟩ := h 5 6 11 [7, 99] rfl
  exact ⟨s, e, w, hs⟩

/-! ### C45 -/

/-- For all secrets `xs` whose images are `yns` the run of the circuit succeeds, the recorded
assignment satisfies every constraint, and the public inputs are key, message, images and hash. -/
theorem C45_honest_witness [NeZero q] {n ySize : Nat} (h1 : 1 ≤ n) (hny : n ≤ ySize) (h256 : ySize ≤ 256)
    (hq : q ≤ 2 ^ ySize) {dcs hcs : List (ZMod q)} (hd : dcs.length = 10) (hh : hcs.length = 10) (key m : ZMod q)
    (xs yns : List (ZMod q))
    (hy : List.Forall₂ (fun x yn => ∃ y, mimc5Df (x + key) m dcs = .ok y ∧ yn = ((y.val % 2 ^ n : Nat) : ZMod q)) xs yns) :
    ∃ s h, spaceCircuit n ySize (some key) (xs.map some) (some m) dcs (yns.map some) hcs (CS.init _ false) = .ok ((), s) ∧
      multiMimc5Hash xs key hcs = .ok h ∧ Satisfies s.cons (s.inst, s.wit) ∧
      s.inst = [key, m] ++ yns ++ if xs = [] then [] else [h] := by
  obtain ⟨hl, hy⟩ := List.forall₂_iff_get.mp hy
  have hy' : ∀ i < xs.length, (dfSeq 5 dcs (key + xs[i]?.getD 0) m MIMC5_DF_ROUNDS).1.val % 2 ^ n = (yns[i]?.getD 0).val ∧
      yns[i]?.getD 0 = (((dfSeq 5 dcs (key + xs[i]?.getD 0) m MIMC5_DF_ROUNDS).1.val % 2 ^ n : Nat) : ZMod q) := by
    intro i hi
    obtain ⟨y, hy1, hy2⟩ := hy i hi (by omega)
    rw [mimc5Df_dfSeq _ _ _ hd, add_comm] at hy1
    have hy1 := Except.ok.inj hy1
    simp only [List.get_eq_getElem] at hy1 hy2
    rw [List.getElem?_eq_getElem hi, List.getElem?_eq_getElem (by omega), Option.getD_some, Option.getD_some, hy1, hy2]
    refine ⟨?_, rfl⟩
    rw [ZMod.val_natCast, Nat.mod_eq_of_lt (lt_of_le_of_lt (Nat.mod_le _ _) (ZMod.val_lt y))]
  have hrun := spaceCircuit_run (q := q) false h1 hny h256 hd hh key m xs yns hl.symm (fun _ => 0) (fun _ => 1)
    (fun i j => (dfSeq 5 dcs (key + xs[i]?.getD 0) m MIMC5_DF_ROUNDS).1.val.testBit j) key _
    (fun _ i hi => ⟨rfl, rfl, fun _ _ => rfl, ?_, fun j hj => ?_⟩) (fun i hi => ?_) (fun _ => rfl)
    (fun _ i => resSeq_accSeq (fun x k => hashSeq 5 hcs x k MIMC5_HASH_ROUNDS + k) _ key i)
  · obtain ⟨s, e, hs, hp, -⟩ := run_prove hrun
    refine ⟨s, _, e, forEach_accSeq (fun x k => hashSeq 5 hcs x k MIMC5_HASH_ROUNDS + k) xs key _ (fun x r => ?_), hs, ?_⟩
    · rw [mimc5Hash_hashSeq x r hcs (by omega)]; rfl
    · rw [hp, ← resSeq_accSeq]
      cases xs <;> simp
  · rw [bnat_testBit, Nat.mod_eq_of_lt (lt_of_lt_of_le (ZMod.val_lt _) hq), ZMod.natCast_zmod_val]
  · rw [← (hy' i hi).1, Nat.testBit_mod_two_pow]
    simp [hj]
  · rw [bnat_testBit, (hy' i hi).2, zero_add, one_mul]

theorem response2_eq {n ySize : Nat} {key m : ZMod q} {xs dcs hcs : List (ZMod q)} {challenges idxs : List Nat}
    (h : ∀ i ∈ idxs, i < challenges.length) :
    response2 n ySize key xs m dcs challenges idxs hcs =
      spaceCircuit n ySize (some key) (xs.map some) (some m) dcs
        ((idxs.map (fun i => ((challenges[i]?.getD 0 : Nat) : ZMod q))).map some) hcs (CS.init _ false) := by
  unfold response2
  have gen : ∀ k ≤ idxs.length, forUp k (fun i acc => do
      let idx ← at! idxs i
      let yn ← at! challenges idx
      pure (acc ++ [some (yn : ZMod q)])) [] =
      .ok (((idxs.take k).map (fun i => ((challenges[i]?.getD 0 : Nat) : ZMod q))).map some) := by
    intro k
    induction k with
    | zero => intro _; rfl
    | succ k ih =>
      intro hk
      rw [forUp_succ, ih (by omega), bind_ok, at!_of_lt (by omega), bind_ok]
      have hlt := h _ (List.getElem_mem (show k < idxs.length by omega))
      rw [at!_of_lt hlt, bind_ok, List.take_add_one, List.getElem?_eq_getElem (by omega)]
      show Except.ok _ = _
      congr 1
      simp only [List.map_append, Option.toList_some, List.map_cons, List.map_nil, List.getElem?_eq_getElem hlt,
        Option.getD_some]
  rw [gen _ (Nat.le_refl _), bind_ok, List.take_length]

/-- The whole honest run: on a marked space, for every list of challenges, the proof circuit of
the second response is synthesised without a panic, its assignment satisfies every constraint and
its public inputs are exactly the list which the verifier assembles from the key, the message, the
challenges, the reported positions and the reported hash — provided there is a response at all. -/
theorem C45_honest_run [NeZero q] {n ySize : Nat} (h3 : 3 ≤ n) (h64 : n < 64) (hny : n ≤ ySize) (h256 : ySize ≤ 256)
    (hq : q ≤ 2 ^ ySize) {dcs hcs : List (ZMod q)} (hd : dcs.length = 10) (hh : hcs.length = 10) (key m : ZMod q)
    (challenges : List Nat) (hch : ∀ y ∈ challenges, y < 2 ^ n) (want : Nat) (hw : 0 < want) :
    ∃ file xs idxs h inputs, (prepareSpace n >>= fun f => markSpace f key m dcs n) = .ok file ∧
      response1 file challenges key hcs n want = .ok (xs, idxs, h) ∧
      verifyInputs key m challenges idxs h = .ok inputs ∧
      ∃ s, response2 n ySize key xs m dcs challenges idxs hcs = .ok ((), s) ∧ Satisfies s.cons (s.inst, s.wit) ∧
        (xs ≠ [] → s.inst = inputs) := by
  obtain ⟨slot, hslot, look, hlook, -, file, h, hf, hr, hhash⟩ := C39_response key m dcs hd n h3 h64 hcs (by omega)
    challenges hch want hw
  set hits := (challenges.zipIdx.filterMap (fun yi => (look yi.1).map (fun x => (x, yi.2)))).take want with hhits
  have hmem : ∀ t ∈ hits, ∃ y, challenges[t.2]? = some y ∧ look y = some t.1 := by
    intro t ht
    have := List.mem_of_mem_take ht
    obtain ⟨⟨y, i⟩, h1, h2⟩ := List.mem_filterMap.mp this
    obtain ⟨x, hx, rfl⟩ := Option.map_eq_some_iff.mp h2
    exact ⟨y, List.mk_mem_zipIdx_iff_getElem?.mp h1, hx⟩
  have hidx : ∀ i ∈ hits.map Prod.snd, i < challenges.length := by
    intro i hi
    obtain ⟨t, ht, rfl⟩ := List.mem_map.mp hi
    obtain ⟨y, hy, -⟩ := hmem t ht
    exact (List.getElem?_eq_some_iff.mp hy).1
  obtain ⟨s, h', e, hh', hs, hin⟩ := C45_honest_witness (q := q) (by omega) hny h256 hq hd hh key m
    (hits.map (fun xi => (xi.1 : ZMod q))) ((hits.map Prod.snd).map (fun i => ((challenges[i]?.getD 0 : Nat) : ZMod q))) (by
      rw [List.map_map, List.forall₂_map_left_iff, List.forall₂_map_right_iff, List.forall₂_same]
      intro t ht
      obtain ⟨y, hy, hl⟩ := hmem t ht
      obtain ⟨Y, hY, hs⟩ := hslot t.1
      refine ⟨Y, hY, ?_⟩
      simp only [Function.comp_apply]
      rw [hy, Option.getD_some, ← hs, (hlook y t.1 hl).2.1])
  obtain rfl : h = h' := by rw [hhash] at hh'; exact Except.ok.inj hh'
  refine ⟨file, _, _, h, _, hf, hr, verifyInputs_eq key m challenges _ h hidx, s, by rw [response2_eq hidx]; exact e, hs,
    fun hne => ?_⟩
  rw [hin, if_neg hne]

/-- An honest run over a small field that finds two preimages: the prover's public inputs are the
verifier's. -/
example : (match (do
      let f ← prepareSpace 3
      let file ← markSpace f (5 : ZMod 103) 6 [1, 2, 3, 4, 5, 6, 7, 8, 9, 10] 3
      let (xs, idxs, h) ← response1 (q := 103) file [1, 2, 3, 4, 5, 6, 7] 5 [1, 2, 3, 4, 5, 6, 7, 8, 9, 10] 3 2
      let inputs ← verifyInputs (q := 103) 5 6 [1, 2, 3, 4, 5, 6, 7] idxs h
      let (_, s) ← response2 (q := 103) 3 7 5 xs 6 [1, 2, 3, 4, 5, 6, 7, 8, 9, 10] [1, 2, 3, 4, 5, 6, 7] idxs [1, 2, 3, 4, 5, 6, 7, 8, 9, 10]
      pure (xs.length, decide (s.inst = inputs)) : R (Nat × Bool)) with
    | .ok r => r = (2, true)
    | _ => false) = true := by decide +kernel

end PoS
