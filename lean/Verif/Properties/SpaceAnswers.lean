import Verif.Proofs.Recorded
import Verif.Properties.SpaceRun

/-
C102: the prover's own assignment satisfies the space circuit exactly if every answer is right;
hence a run of the proof of space succeeds only with right answers.
-/

namespace PoS

set_option linter.unusedSectionVars false

variable {q : Nat}

theorem at!_map_some (xs : List (ZMod q)) (i : Nat) (h : i < xs.length) :
    at! (xs.map some) i = .ok (some (xs[i]?.getD 0)) := at!_map_opt false xs i h

theorem spaceCircuit_rec [NeZero q] {n ySize : Nat} (h1 : 1 ≤ n) (hny : n ≤ ySize) (h256 : ySize ≤ 256) (hq : q ≤ 2 ^ ySize)
    {dcs hcs : List (ZMod q)} (hd : dcs.length = 10) (hh : hcs.length = 10) (key m : ZMod q) (xs yns : List (ZMod q))
    (hlen : yns.length = xs.length) :
    Rec (spaceCircuit n ySize (some key) (xs.map some) (some m) dcs (yns.map some) hcs) (CS.init _ false)
      (∀ i < xs.length, yns[i]?.getD 0 =
        (((dfSeq 5 dcs (key + xs[i]?.getD 0) m MIMC5_DF_ROUNDS).1.val % 2 ^ n : Nat) : ZMod q)) (fun _ _ => True) := by
  have g0 : Rok (CS.init (ZMod q) false) := ⟨rfl, rfl, rfl, (by intro c hc; cases hc)⟩
  unfold spaceCircuit
  rw [if_neg (by simp [hd, MIMC5_DF_ROUNDS]), if_neg (by simp [hh, MIMC5_HASH_ROUNDS])]
  refine Rec.bind0 (Rec.newInput g0 key) ?_
  intro kv s1 o1 h1k
  refine Rec.bind0 (Rec.newInput o1.ok m) ?_
  intro mv s2 o2 _
  have hloop := Rec.synUp (n := (xs.map some).length)
    (f := fun i (_ : Unit) => spaceInput n ySize (some key) kv (some m) (xs.map some) dcs (yns.map some) i)
    (t := ()) o2.ok (fun i => yns[i]?.getD 0 =
      (((dfSeq 5 dcs (key + xs[i]?.getD 0) m MIMC5_DF_ROUNDS).1.val % 2 ^ n : Nat) : ZMod q)) (fun _ _ _ => True) trivial
    (fun i hi t s' o _ => by
      rw [List.length_map] at hi
      exact spaceInput_rec o.ok h1 hny h256 hq hd (o.mono _ _ (o2.mono _ _ h1k)) (at!_map_some xs i hi)
        (at!_map_some yns i (by omega)))
  refine (Rec.bind hloop (D := True) ?_).congr (by simp)
  intro _ s3 o3 _
  refine Rec.bind0 (Rec.newWit o3.ok key) ?_
  intro res s4 o4 h4
  have hl := hashLoop_run (e := 5) (rounds := MIMC5_HASH_ROUNDS) (mimc5HashRound_run hcs) (by decide) (by rw [hh]; decide)
    o4.ok.good (xs := xs.map some) (x := fun i => xs[i]?.getD 0) (r := key) (res := ⟨res, some key⟩)
    (fun i hi => by
      rw [show ({ s4 with cons := [] } : CS (ZMod q)).setup = false from o4.ok.mode]
      exact at!_map_opt false xs i (by simpa using hi))
    (fun _ i => resSeq_accSeq (fun x k => hashSeq 5 hcs x k MIMC5_HASH_ROUNDS + k) _ key i)
    ⟨(at_cons _ _ _ _ _).mpr h4, by rw [opt_some o4.ok.mode]⟩
  refine Rec.bind0 (Rec.of_run o4.ok (Frame.synUp fun i t => hashInput_frame _ (mimc5HashRound_frame hcs) _ i t) hl
    (Q' := fun _ _ => True) (fun _ _ _ _ _ => trivial)) ?_
  intro _ s5 o5 _
  exact Rec.pure o5.ok () trivial

/-- For any answers, right or wrong, the proving run of the circuit does not panic, and the
assignment it records satisfies the constraints exactly if every answer maps to its challenge. -/
theorem C102_assignment [NeZero q] {n ySize : Nat} (h1 : 1 ≤ n) (hny : n ≤ ySize) (h256 : ySize ≤ 256) (hq : q ≤ 2 ^ ySize)
    {dcs hcs : List (ZMod q)} (hd : dcs.length = 10) (hh : hcs.length = 10) (key m : ZMod q) (xs : List (ZMod q))
    (challenges idxs : List Nat) (hlen : idxs.length = xs.length) (hidx : ∀ i ∈ idxs, i < challenges.length) :
    ∃ s, response2 n ySize key xs m dcs challenges idxs hcs = .ok ((), s) ∧
      (Satisfies s.cons (s.inst, s.wit) ↔
        ∀ (i : Nat) (x : ZMod q) (j c : Nat), xs[i]? = some x → idxs[i]? = some j → challenges[j]? = some c →
          ∃ Y, mimc5Df (x + key) m dcs = .ok Y ∧ (c : ZMod q) = ((Y.val % 2 ^ n : Nat) : ZMod q)) := by
  obtain ⟨_, s, e, o, -⟩ := spaceCircuit_rec (q := q) h1 hny h256 hq hd hh key m xs
    (idxs.map (fun i => ((challenges[i]?.getD 0 : Nat) : ZMod q))) (by simp [hlen])
  refine ⟨s, by rw [response2_eq hidx]; exact e, ?_⟩
  have hsat := o.sat
  rw [show recd s = (s.inst, s.wit) from rfl] at hsat
  rw [hsat]
  have h0 : Satisfies (CS.init (ZMod q) false).cons (recd (CS.init (ZMod q) false)) := by intro c hc; cases hc
  simp only [h0, true_and]
  constructor
  · intro h i x j c hx hj hc
    have hi : i < xs.length := (List.getElem?_eq_some_iff.mp hx).1
    have := h i hi
    rw [List.getElem?_map, hj, hx] at this
    simp only [Option.map_some, Option.getD_some, hc] at this
    exact ⟨_, by rw [mimc5Df_dfSeq _ _ _ hd, add_comm], this⟩
  · intro h i hi
    have hi' : i < idxs.length := by omega
    have hj := hidx _ (List.getElem_mem hi')
    obtain ⟨Y, hY, hc⟩ := h i _ _ _ (List.getElem?_eq_getElem hi) (List.getElem?_eq_getElem hi') (List.getElem?_eq_getElem hj)
    rw [mimc5Df_dfSeq _ _ _ hd, add_comm] at hY
    rw [List.getElem?_map, List.getElem?_eq_getElem hi', List.getElem?_eq_getElem hi]
    simp only [Option.map_some, Option.getD_some, List.getElem?_eq_getElem hj]
    rw [Except.ok.inj hY, hc]

/-- With 3 bits over the integers mod 103 the inputs 1 and 3 map to 1 and 3: the assignment for
these answers is satisfying, with the positions of the challenges exchanged it is not. -/
example : ∃ s s', response2 (q := 103) 3 7 5 [1, 3] 6 [1, 2, 3, 4, 5, 6, 7, 8, 9, 10] [3, 1] [1, 0]
      [1, 2, 3, 4, 5, 6, 7, 8, 9, 10] = .ok ((), s) ∧ Satisfies s.cons (s.inst, s.wit) ∧
    response2 (q := 103) 3 7 5 [1, 3] 6 [1, 2, 3, 4, 5, 6, 7, 8, 9, 10] [3, 1] [0, 1]
      [1, 2, 3, 4, 5, 6, 7, 8, 9, 10] = .ok ((), s') ∧ ¬ Satisfies s'.cons (s'.inst, s'.wit) := by
  have hm : ∀ x : ZMod 103, ∃ Y, mimc5Df (x + 5) 6 [1, 2, 3, 4, 5, 6, 7, 8, 9, 10] = .ok Y ∧
      (x = 1 → Y.val % 2 ^ 3 = 1) ∧ (x = 3 → Y.val % 2 ^ 3 = 3) := by
    intro x
    refine ⟨_, mimc5Df_dfSeq _ _ _ rfl, ?_, ?_⟩
    · rintro rfl; decide +kernel
    · rintro rfl; decide +kernel
  obtain ⟨s, e, h⟩ := C102_assignment (q := 103) (n := 3) (ySize := 7) (by omega) (by omega) (by omega) (by norm_num)
    (dcs := [1, 2, 3, 4, 5, 6, 7, 8, 9, 10]) (hcs := [1, 2, 3, 4, 5, 6, 7, 8, 9, 10]) rfl rfl 5 6 [1, 3] [3, 1] [1, 0] rfl
    (by decide)
  obtain ⟨s', e', h'⟩ := C102_assignment (q := 103) (n := 3) (ySize := 7) (by omega) (by omega) (by omega) (by norm_num)
    (dcs := [1, 2, 3, 4, 5, 6, 7, 8, 9, 10]) (hcs := [1, 2, 3, 4, 5, 6, 7, 8, 9, 10]) rfl rfl 5 6 [1, 3] [3, 1] [0, 1] rfl
    (by decide)
  refine ⟨s, s', e, h.mpr ?_, e', fun hs => ?_⟩
  · intro i x j c hx hj hc
    obtain ⟨Y, hY, h1, h3⟩ := hm x
    refine ⟨Y, hY, ?_⟩
    match i with
    | 0 => cases hx; cases hj; cases hc; rw [h1 rfl]
    | 1 => cases hx; cases hj; cases hc; rw [h3 rfl]
    | i + 2 => simp at hx
  · obtain ⟨Y, hY, hc⟩ := h'.mp hs 0 1 0 3 rfl rfl rfl
    obtain ⟨Y', hY', h1, -⟩ := hm 1
    rw [hY'] at hY
    obtain rfl := Except.ok.inj hY
    rw [h1 rfl] at hc
    exact absurd hc (by decide)

theorem respLoop_shape {file : Bytes} {n want : Nat} (chs : List Nat) (i : Nat) (s s' : RespState q)
    (h : respLoop file n want chs i s = .ok s') (hl : s.xs.length = s.count ∧ s.idxs.length = s.count) (hc : s.count < want)
    (hb : ∀ j ∈ s.idxs, j < i) (hs : s.idxs.Pairwise (· < ·)) :
    (s'.xs.length = s'.count ∧ s'.idxs.length = s'.count) ∧ s'.count ≤ want ∧ (∀ j ∈ s'.idxs, j < i + chs.length) ∧
      s'.idxs.Pairwise (· < ·) := by
  induction chs generalizing i s with
  | nil =>
    cases h
    exact ⟨hl, Nat.le_of_lt hc, fun j hj => hb j hj, hs⟩
  | cons y chs ih =>
    unfold respLoop at h
    obtain ⟨bits, -, h⟩ := bind_eq_ok.mp h
    obtain ⟨flag, -, h⟩ := bind_eq_ok.mp h
    obtain ⟨s1, h1, h⟩ := bind_eq_ok.mp h
    have key : (s1.xs.length = s1.count ∧ s1.idxs.length = s1.count) ∧ s1.count ≤ want ∧ (∀ j ∈ s1.idxs, j < i + 1) ∧
        s1.idxs.Pairwise (· < ·) := by
      by_cases hf : flag = true
      · rw [if_pos hf] at h1
        obtain ⟨b1, -, h1⟩ := bind_eq_ok.mp h1
        obtain ⟨x, -, h1⟩ := bind_eq_ok.mp h1
        cases h1
        refine ⟨by simp [hl], hc, ?_, ?_⟩
        · intro j hj
          rcases List.mem_append.mp hj with hj | hj
          · have := hb j hj; omega
          · rw [List.mem_singleton.mp hj]; omega
        · refine List.pairwise_append.mpr ⟨hs, List.pairwise_singleton _ _, ?_⟩
          intro a ha b hb'
          rw [List.mem_singleton.mp hb']
          exact hb a ha
      · rw [if_neg hf] at h1
        cases h1
        exact ⟨hl, Nat.le_of_lt hc, fun j hj => by have := hb j hj; omega, hs⟩
    obtain ⟨k1, k2, k3, k4⟩ := key
    by_cases hw : s1.count = want
    · rw [if_pos hw] at h
      cases h
      refine ⟨k1, k2, fun j hj => ?_, k4⟩
      have := k3 j hj
      simp only [List.length_cons]; omega
    · rw [if_neg hw] at h
      obtain ⟨r1, r2, r3, r4⟩ := ih (i + 1) s1 h k1 (by omega) k3 k4
      refine ⟨r1, r2, fun j hj => ?_, r4⟩
      have := r3 j hj
      simp only [List.length_cons]; omega

/-- Whatever the table file contains - the marked table, a damaged or a foreign one -: the answers
of `response_1` name different challenges in increasing order, at most `want`, with one input each;
and the assignment of `response_2` for them is satisfying exactly if every input maps to the
challenge it was given for. -/
theorem C102_any_table [NeZero q] {n ySize : Nat} (h1 : 1 ≤ n) (hny : n ≤ ySize) (h256 : ySize ≤ 256) (hq : q ≤ 2 ^ ySize)
    {dcs hcs : List (ZMod q)} (hd : dcs.length = 10) (hh : hcs.length = 10) (key m : ZMod q) (file : Bytes)
    (challenges : List Nat) (want : Nat) (hw : 0 < want) (xs : List (ZMod q)) (idxs : List Nat) (h : ZMod q)
    (hr : response1 file challenges key hcs n want = .ok (xs, idxs, h)) :
    xs.length = idxs.length ∧ idxs.length ≤ want ∧ (∀ j ∈ idxs, j < challenges.length) ∧ idxs.Pairwise (· < ·) ∧
    ∃ s, response2 n ySize key xs m dcs challenges idxs hcs = .ok ((), s) ∧
      (Satisfies s.cons (s.inst, s.wit) ↔
        ∀ (i : Nat) (x : ZMod q) (j c : Nat), xs[i]? = some x → idxs[i]? = some j → challenges[j]? = some c →
          ∃ Y, mimc5Df (x + key) m dcs = .ok Y ∧ (c : ZMod q) = ((Y.val % 2 ^ n : Nat) : ZMod q)) := by
  unfold response1 at hr
  obtain ⟨s, hs, hr⟩ := bind_eq_ok.mp hr
  obtain ⟨hv, -, hr⟩ := bind_eq_ok.mp hr
  cases hr
  obtain ⟨⟨e1, e2⟩, e3, e4, e5⟩ := respLoop_shape challenges 0 _ s hs ⟨rfl, rfl⟩ hw (by simp) List.Pairwise.nil
  simp only [Nat.zero_add] at e4
  exact ⟨by omega, by omega, e4, e5, C102_assignment h1 hny h256 hq hd hh key m s.xs challenges s.idxs (by omega) e4⟩

/-- A table that was overwritten: every cell claims the input 7 for every challenge. -/
example : ∃ h s, response1 (q := 103) (List.replicate 4 255) [0, 6, 7] 5 [1, 2, 3, 4, 5, 6, 7, 8, 9, 10] 3 2 =
      .ok ([7, 7], [0, 1], h) ∧
    response2 (q := 103) 3 7 5 [7, 7] 6 [1, 2, 3, 4, 5, 6, 7, 8, 9, 10] [0, 6, 7] [0, 1]
      [1, 2, 3, 4, 5, 6, 7, 8, 9, 10] = .ok ((), s) ∧ ¬ Satisfies s.cons (s.inst, s.wit) := by
  have hr : response1 (q := 103) (List.replicate 4 255) [0, 6, 7] 5 [1, 2, 3, 4, 5, 6, 7, 8, 9, 10] 3 2 =
      .ok ([7, 7], [0, 1], 31) := by decide +kernel
  obtain ⟨-, -, -, -, s, e, hs⟩ := C102_any_table (q := 103) (n := 3) (ySize := 7) (by omega) (by omega) (by omega)
    (by norm_num) (dcs := [1, 2, 3, 4, 5, 6, 7, 8, 9, 10]) rfl rfl 5 6 _ _ 2 (by omega) _ _ _ hr
  refine ⟨_, s, hr, e, fun h => ?_⟩
  obtain ⟨Y, hY, hc⟩ := hs.mp h 0 7 0 0 rfl rfl rfl
  have hv : (match mimc5Df ((7 : ZMod 103) + 5) 6 [1, 2, 3, 4, 5, 6, 7, 8, 9, 10] with
    | .ok Y => decide (Y.val % 2 ^ 3 = 7)
    | .error _ => false) = true := by decide +kernel
  rw [hY] at hv
  simp only [decide_eq_true_eq] at hv
  rw [hv] at hc
  exact absurd hc (by decide)

/-- A run for any number of bits, in particular for the two bits where the table is corrupted
(C40): given the table, challenges and answers of the run, it reports success exactly if there are
`want` answers and every answer maps to its challenge; otherwise it stops with a failed assertion.
The success direction assumes, as in C77, that the pairing check of an honestly made proof
does not fail. -/
theorem C102_run [NeZero q] {n ySize : Nat} (h1 : 1 ≤ n) (hny : n ≤ ySize) (h256 : ySize ≤ 256) (hq : q ≤ 2 ^ ySize)
    {dcs hcs : List (ZMod q)} (hd : dcs.length = 10) (hh : hcs.length = 10) (key m : ZMod q)
    (chCount want : Nat) (hw : 0 < want) (draw : Nat → Nat)
    (prove : CS (ZMod q) → CS (ZMod q) → List (ZMod q) → Option Bool)
    (f file : Bytes) (challenges : List Nat) (xs : List (ZMod q)) (idxs : List Nat) (h : ZMod q)
    (hf : prepareSpace n = .ok f) (hm : markSpace f key m dcs n = .ok file)
    (hc : spaceChallenges draw chCount n = .ok challenges)
    (hr : response1 file challenges key hcs n want = .ok (xs, idxs, h)) :
    ((∀ pk s, pk.nInst = s.nInst → pk.nWit = s.nWit → pk.cons = s.cons → Satisfies s.cons (s.inst, s.wit) →
        prove pk s s.inst ≠ none) →
      (idxs.length = want ∧
        ∀ (i : Nat) (x : ZMod q) (j c : Nat), xs[i]? = some x → idxs[i]? = some j → challenges[j]? = some c →
          ∃ Y, mimc5Df (x + key) m dcs = .ok Y ∧ (c : ZMod q) = ((Y.val % 2 ^ n : Nat) : ZMod q)) →
      pospaceRun n ySize chCount want dcs hcs key m draw prove = .ok want) ∧
    (¬ (idxs.length = want ∧
        ∀ (i : Nat) (x : ZMod q) (j c : Nat), xs[i]? = some x → idxs[i]? = some j → challenges[j]? = some c →
          ∃ Y, mimc5Df (x + key) m dcs = .ok Y ∧ (c : ZMod q) = ((Y.val % 2 ^ n : Nat) : ZMod q)) →
      pospaceRun n ySize chCount want dcs hcs key m draw prove = .error .assertion) := by
  obtain ⟨hlen, -, hidx, -, s, hs, hsat⟩ := C102_any_table h1 hny h256 hq hd hh key m file challenges want hw xs idxs h hr
  obtain ⟨pk, hpk, -, hmis⟩ := C49_count_mismatch (q := q) (n := n) (ySize := ySize) h1 hny h256 hd hh want hw
  have hpre : pospaceRun n ySize chCount want dcs hcs key m draw prove =
      (if Satisfies s.cons (s.inst, s.wit) then do
        spaceVerify (pk.nInst + 1) (prove pk s) key m challenges idxs h
        pure idxs.length
      else .error .assertion) := by
    unfold pospaceRun
    simp only [hf, hm, hc, hr, hpk, hs, bind_ok]
  rw [hpre, ← hsat]
  constructor
  · rintro hprove ⟨hcnt, hok⟩
    rw [if_pos hok]
    obtain ⟨e1, e2, e3⟩ := C49_space_shape n ySize want dcs hcs pk s key m xs challenges idxs (by omega) hpk hs
    have hp := hprove pk s e1 e2 e3 hok
    obtain ⟨g, hg1, hg2, -⟩ := C46_every_statement_provable (q := q) (n := n) (ySize := ySize) h1 hny h256 hd hh want hw
    have hg : g = pk := by rw [hpk] at hg1; exact (congrArg Prod.snd (Except.ok.inj hg1)).symm
    subst hg
    -- the public inputs of the prover are those of the verifier
    obtain ⟨s', h', e', hh', -, hin⟩ := C45_honest_witness (q := q) h1 hny h256 hq hd hh key m xs
      (idxs.map (fun i => ((challenges[i]?.getD 0 : Nat) : ZMod q))) (by
        rw [List.forall₂_iff_get]
        refine ⟨by simp [hlen], fun i hi1 hi2 => ?_⟩
        rw [List.length_map] at hi2
        have hj := hidx _ (List.getElem_mem hi2)
        obtain ⟨Y, hY, hcY⟩ := hsat.mp hok i _ _ _ (List.getElem?_eq_getElem hi1) (List.getElem?_eq_getElem hi2)
          (List.getElem?_eq_getElem hj)
        refine ⟨Y, hY, ?_⟩
        simp only [List.get_eq_getElem, List.getElem_map, List.getElem?_eq_getElem hj, Option.getD_some]
        exact hcY)
    rw [response2_eq hidx, e'] at hs
    obtain rfl : s' = s := congrArg Prod.snd (Except.ok.inj hs)
    have hhash : h' = h := by
      unfold response1 at hr
      obtain ⟨t, -, hr⟩ := bind_eq_ok.mp hr
      obtain ⟨hv, hv1, hr⟩ := bind_eq_ok.mp hr
      cases hr
      rw [hv1] at hh'
      exact (Except.ok.inj hh').symm
    have hne : xs ≠ [] := by
      intro h0
      rw [h0] at hlen
      simp at hlen
      omega
    rw [if_neg hne, hhash] at hin
    rw [(C48_accepts_iff (g.nInst + 1) (prove g s') key m challenges _ h hidx).mpr ⟨by rw [hcnt, hg2], ?_⟩, bind_ok, hcnt]
    · rfl
    · rw [← hin]
      exact Option.ne_none_iff_exists'.mp hp
  · intro hno
    by_cases hok : Satisfies s.cons (s.inst, s.wit)
    · rw [if_pos hok, hmis _ key m challenges _ h (fun e => hno ⟨e, hok⟩) hidx]
      rfl
    · rw [if_neg hok]

/-- Two bits, the BLS12-381 scalar field, challenges 3 and then 2, one answer wanted: 2 has a
preimage, 3 has none, but the corrupted table answers challenge 3 with the input 0, and the honest
run stops with a failed assertion.  With three bits or more it would have succeeded (C77). -/
theorem C102_two_bits (prove : CS (ZMod blsR) → CS (ZMod blsR) → List (ZMod blsR) → Option Bool) :
    (∃ x < 4, slotOf (12 : ZMod blsR) 7 [1, 2, 3, 4, 5, 6, 7, 8, 9, 10] 2 x = .ok 2) ∧
    spaceChallenges (fun j => if j = 2 then 0 else 1) 2 2 = .ok [3, 2] ∧
    pospaceRun 2 256 2 1 [1, 2, 3, 4, 5, 6, 7, 8, 9, 10] [1, 2, 3, 4, 5, 6, 7, 8, 9, 10] (12 : ZMod blsR) 7
      (fun j => if j = 2 then 0 else 1) prove = .error .assertion := by
  haveI : NeZero blsR := ⟨by decide⟩
  have hc : spaceChallenges (fun j => if j = 2 then 0 else 1) 2 2 = .ok [3, 2] := by decide +kernel
  have hf : prepareSpace 2 = .ok [0] := by decide +kernel
  have hm : markSpace [0] (12 : ZMod blsR) 7 [1, 2, 3, 4, 5, 6, 7, 8, 9, 10] 2 = .ok [232, 169] := by decide +kernel
  have hr : (match response1 [232, 169] [3, 2] (12 : ZMod blsR) [1, 2, 3, 4, 5, 6, 7, 8, 9, 10] 2 1 with
      | .ok (xs, idxs, _) => decide (xs = [0] ∧ idxs = [0])
      | .error _ => false) = true := by decide +kernel
  have hv : (match mimc5Df ((0 : ZMod blsR) + 12) 7 [1, 2, 3, 4, 5, 6, 7, 8, 9, 10] with
      | .ok Y => decide (((3 : Nat) : ZMod blsR) ≠ ((Y.val % 2 ^ 2 : Nat) : ZMod blsR))
      | .error _ => true) = true := by decide +kernel
  refine ⟨by decide +kernel, hc, ?_⟩
  cases hresp : response1 [232, 169] [3, 2] (12 : ZMod blsR) [1, 2, 3, 4, 5, 6, 7, 8, 9, 10] 2 1 with
  | error e => rw [hresp] at hr; simp at hr
  | ok o =>
    obtain ⟨xs, idxs, h⟩ := o
    rw [hresp] at hr
    simp only [decide_eq_true_eq] at hr
    obtain ⟨rfl, rfl⟩ := hr
    refine (C102_run (n := 2) (ySize := 256) (by omega) (by omega) (by omega) (by unfold blsR; norm_num) rfl rfl 12 7 2 1
      (by omega) _ prove _ _ _ _ _ _ hf hm hc hresp).2 ?_
    rintro ⟨-, hok⟩
    obtain ⟨Y, hY, hcY⟩ := hok 0 0 0 3 rfl rfl rfl
    rw [hY] at hv
    simp only [decide_eq_true_eq] at hv
    exact hv hcY

end PoS
