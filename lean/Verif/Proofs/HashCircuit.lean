import Verif.Proofs.Circuits
import Verif.Properties.Mimc

/-
The hash circuits: counting variables, soundness of the rounds, and the relation the whole circuit
expresses.
-/

namespace PoS

set_option linter.unusedSectionVars false

variable {F : Type} [CommRing F]

/-! ### Counting -/

theorem hashT_cnt (cs : List F) (xIn key : VarVal F) (j : Nat) (h : VarVal F) : Cnt (hashT cs xIn key j h) 1 0 := by
  unfold hashT
  by_cases h0 : j = 0
  · rw [if_pos h0]
    exact Cnt.bind (Cnt.lift _) (fun _ => Cnt.bind (Cnt.newWit _) (fun _ => Cnt.bind (Cnt.enforce _ _ _)
      (fun _ => Cnt.pure _) rfl rfl) rfl rfl) rfl rfl
  · rw [if_neg h0]
    exact Cnt.bind (Cnt.lift _) (fun _ => Cnt.bind (Cnt.lift _) (fun _ => Cnt.bind (Cnt.newWit _) (fun _ =>
      Cnt.bind (Cnt.enforce _ _ _) (fun _ => Cnt.pure _) rfl rfl) rfl rfl) rfl rfl) rfl rfl

theorem mimc5HashRound_cnt (cs : List F) (xIn key : VarVal F) (j : Nat) (h : VarVal F) :
    Cnt (mimc5HashRound cs xIn key j h) 4 0 := by
  unfold mimc5HashRound
  exact Cnt.bind (hashT_cnt _ _ _ _ _) (fun _ => Cnt.bind (Cnt.newWit _) (fun _ => Cnt.bind (Cnt.enforce _ _ _) (fun _ =>
    Cnt.bind (Cnt.newWit _) (fun _ => Cnt.bind (Cnt.enforce _ _ _) (fun _ => Cnt.bind (Cnt.lift _) (fun _ =>
    Cnt.bind (Cnt.newWit _) (fun _ => Cnt.bind (Cnt.enforce _ _ _) (fun _ => Cnt.pure _) rfl rfl) rfl rfl) rfl rfl)
    rfl rfl) rfl rfl) rfl rfl) rfl rfl) rfl rfl

theorem mimc7HashRound_cnt (cs : List F) (xIn key : VarVal F) (j : Nat) (h : VarVal F) :
    Cnt (mimc7HashRound cs xIn key j h) 5 0 := by
  unfold mimc7HashRound
  exact Cnt.bind (hashT_cnt _ _ _ _ _) (fun _ => Cnt.bind (Cnt.newWit _) (fun _ => Cnt.bind (Cnt.enforce _ _ _) (fun _ =>
    Cnt.bind (Cnt.newWit _) (fun _ => Cnt.bind (Cnt.enforce _ _ _) (fun _ => Cnt.bind (Cnt.lift _) (fun _ =>
    Cnt.bind (Cnt.newWit _) (fun _ => Cnt.bind (Cnt.enforce _ _ _) (fun _ => Cnt.bind (Cnt.lift _) (fun _ =>
    Cnt.bind (Cnt.newWit _) (fun _ => Cnt.bind (Cnt.enforce _ _ _) (fun _ => Cnt.pure _) rfl rfl) rfl rfl) rfl rfl)
    rfl rfl) rfl rfl) rfl rfl) rfl rfl) rfl rfl) rfl rfl) rfl rfl) rfl rfl

theorem hashInput_cnt {rounds w : Nat} {round : VarVal F → VarVal F → Nat → VarVal F → Syn F (VarVal F)}
    (hc : ∀ xIn key j h, Cnt (round xIn key j h) w 0) (xs : List (Option F)) (i : Nat) (res : VarVal F) :
    Cnt (hashInput rounds round xs i res) (rounds * w + 4 + if i + 1 = xs.length then 0 else 1)
      (if i + 1 = xs.length then 1 else 0) := by
  unfold hashInput
  exact Cnt.bind (Cnt.lift _) (fun _ => Cnt.bind (Cnt.newWit _) (fun _ => Cnt.bind (Cnt.newWit _) (fun _ =>
    Cnt.bind (Cnt.newWit _) (fun _ => Cnt.bind (Cnt.synUp (fun j t => hc _ _ j t)) (fun _ => Cnt.bind (Cnt.lift _) (fun _ =>
    Cnt.bind (Cnt.newWit _) (fun _ => Cnt.bind (Cnt.enforce _ _ _) (fun _ => Cnt.bind (Cnt.lift _) (fun _ =>
    Cnt.bind (Cnt.ite (Cnt.newInput _) (Cnt.newWit _)) (fun _ => Cnt.bind (Cnt.enforce _ _ _) (fun _ => Cnt.pure _)
    rfl rfl) rfl rfl) rfl rfl) rfl rfl) rfl rfl) rfl rfl) rfl rfl) rfl rfl) rfl rfl) rfl rfl) (by omega) (by omega)

/-! ### Soundness -/

/-- What a satisfied round says. -/
def HashRoundSnd (e : Nat) (cs : List F) (round : VarVal F → VarVal F → Nat → VarVal F → Syn F (VarVal F)) : Prop :=
  ∀ (xIn key : VarVal F) (j : Nat) (h : VarVal F), Snd (round xIn key j h) (fun h' _ _ a =>
    valA a h'.var = (if j = 0 then valA a xIn.var + valA a key.var
      else valA a h.var + valA a key.var + cs[j]?.getD 0) ^ e)

theorem hashT_snd (cs : List F) (xIn key : VarVal F) (j : Nat) (h : VarVal F) :
    Snd (hashT cs xIn key j h) (fun t _ _ a =>
      valA a t.var = if j = 0 then valA a xIn.var + valA a key.var
        else valA a h.var + valA a key.var + cs[j]?.getD 0) := by
  unfold hashT
  by_cases h0 : j = 0
  · simp only [if_pos h0]
    refine (Snd.bind (Snd.lift _) (fun _ => Snd.bind (Snd.newWit _) (fun _ => Snd.bind (Snd.enforce _ _ _)
      (fun _ => Snd.pure _)))).weaken ?_
    rintro t s s' a ⟨_, _, -, _, _, -, _, _, ⟨e, -⟩, rfl, -⟩
    simp only [evalLC_cons, evalLC_nil, valA_one, one_mul, add_zero, mul_one] at e
    exact e.symm
  · simp only [if_neg h0]
    refine (Snd.bind (Snd.lift _) (fun _ => Snd.bind (Snd.lift _) (fun _ => Snd.bind (Snd.newWit _) (fun _ =>
      Snd.bind (Snd.enforce _ _ _) (fun _ => Snd.pure _))))).weaken ?_
    rintro t s s' a ⟨c, _, ⟨hc, -⟩, _, _, -, _, _, -, _, _, ⟨e, -⟩, rfl, -⟩
    simp only [evalLC_cons, evalLC_nil, valA_one, one_mul, add_zero, mul_one] at e
    rw [at!_eq_ok] at hc
    rw [hc, Option.getD_some, add_assoc]
    exact e.symm

theorem mimc5HashRound_snd (cs : List F) : HashRoundSnd 5 cs (mimc5HashRound cs) := by
  intro xIn key j h
  unfold mimc5HashRound
  refine (Snd.bind (hashT_snd _ _ _ _ _) (fun _ => Snd.bind (Snd.newWit _) (fun _ => Snd.bind (Snd.enforce _ _ _) (fun _ =>
    Snd.bind (Snd.newWit _) (fun _ => Snd.bind (Snd.enforce _ _ _) (fun _ => Snd.bind (Snd.lift _) (fun _ =>
    Snd.bind (Snd.newWit _) (fun _ => Snd.bind (Snd.enforce _ _ _) (fun _ => Snd.pure _))))))))).weaken ?_
  rintro r s s' a ⟨t, _, ht, t2, _, -, _, _, ⟨e2, -⟩, t4, _, -, _, _, ⟨e4, -⟩, _, _, -, t5, _, -, _, _, ⟨e5, -⟩, rfl, -⟩
  simp only [evalLC_cons, evalLC_nil, one_mul, add_zero] at e2 e4 e5
  rw [← ht]
  simp only
  rw [← e5, ← e4, ← e2]; ring

theorem mimc7HashRound_snd (cs : List F) : HashRoundSnd 7 cs (mimc7HashRound cs) := by
  intro xIn key j h
  unfold mimc7HashRound
  refine (Snd.bind (hashT_snd _ _ _ _ _) (fun _ => Snd.bind (Snd.newWit _) (fun _ => Snd.bind (Snd.enforce _ _ _) (fun _ =>
    Snd.bind (Snd.newWit _) (fun _ => Snd.bind (Snd.enforce _ _ _) (fun _ => Snd.bind (Snd.lift _) (fun _ =>
    Snd.bind (Snd.newWit _) (fun _ => Snd.bind (Snd.enforce _ _ _) (fun _ => Snd.bind (Snd.lift _) (fun _ =>
    Snd.bind (Snd.newWit _) (fun _ => Snd.bind (Snd.enforce _ _ _) (fun _ => Snd.pure _)))))))))))).weaken ?_
  rintro r s s' a ⟨t, _, ht, t2, _, -, _, _, ⟨e2, -⟩, t4, _, -, _, _, ⟨e4, -⟩, _, _, -, t6, _, -, _, _, ⟨e6, -⟩,
    _, _, -, t7, _, -, _, _, ⟨e7, -⟩, rfl, -⟩
  simp only [evalLC_cons, evalLC_nil, one_mul, add_zero] at e2 e4 e6 e7
  rw [← ht]
  simp only
  rw [← e7, ← e6, ← e4, ← e2]; ring

theorem hashInput_snd {e rounds w : Nat} {cs : List F} {round : VarVal F → VarVal F → Nat → VarVal F → Syn F (VarVal F)}
    (hr : HashRoundSnd e cs round) (hc : ∀ xIn key j h, Cnt (round xIn key j h) w 0) (h0 : 0 < rounds)
    (xs : List (Option F)) (i : Nat) (res : VarVal F) :
    Snd (hashInput rounds round xs i res) (fun res' s _ a =>
      (∃ k, valA a res'.var = valA a res.var + valA a (.wit s.nWit) +
        (hashSeq e cs (valA a (.wit s.nWit)) k rounds + k)) ∧ (i + 1 = xs.length → res'.var = .inst s.nInst)) := by
  unfold hashInput
  refine (Snd.bind (Snd.lift _) (fun xv => Snd.bind (Snd.newWit _) (fun x => Snd.bind (Snd.newWit _) (fun key =>
    Snd.bind (Snd.newWit _) (fun hh => Snd.bind ((Snd.synUp (fun j h _ a =>
      0 < j → valA a h.var = hashSeq e cs (valA a x) (valA a key) j) (fun j hj t => (hr _ _ j t).weaken ?_)).cnt
        (Cnt.synUp (fun j t => hc _ _ j t))) (fun h =>
    Snd.bind (Snd.lift _) (fun _ => Snd.bind (Snd.newWit _) (fun newH => Snd.bind (Snd.enforce _ _ _) (fun _ =>
    Snd.bind (Snd.lift _) (fun _ => Snd.bind (Snd.ite (Snd.newInput _) (Snd.newWit _)) (fun new =>
    Snd.bind (Snd.enforce _ _ _) (fun _ => Snd.pure _)))))))))))).weaken ?_
  · intro h' s s' a hv ih _
    rw [hv, hashSeq]
    by_cases hj0 : j = 0
    · rw [if_pos hj0, if_pos hj0]
    · rw [if_neg hj0, if_neg hj0, ih (by omega)]
  · rintro r s s' a ⟨xv, z, ⟨-, hz⟩, x, s1, ⟨hx, -, n1⟩, key, s2, ⟨-, -, n2⟩, hh, s3, ⟨-, -, n3⟩, h, s4, ⟨hl, -, n4⟩, _, s5,
      ⟨-, q5⟩, newH, s6, ⟨-, -, n6⟩, _, s7, ⟨e1, n7, -⟩, _, s8, ⟨-, q8⟩, new, _, hn, _, _, ⟨e2, -⟩, rfl, -⟩
    simp only [evalLC_cons, evalLC_nil, valA_one, one_mul, add_zero, mul_one] at e1 e2
    rw [hz] at hx
    rw [← hx]
    refine ⟨⟨valA a key, ?_⟩, fun hi => ?_⟩
    · simp only
      rw [← e2, ← e1, hl (fun h => absurd h (by omega)) h0]
      ring
    · rcases hn with ⟨-, hn, -⟩ | ⟨hn, -⟩
      · simp only
        rw [hn, q8, n7, n6, q5, n4, n3, n2, n1, hz]; simp
      · exact absurd hi hn

/-! ### The relation -/

/-- The common body of the two hash circuits. -/
def hashBody (rounds : Nat) (round : VarVal F → VarVal F → Nat → VarVal F → Syn F (VarVal F))
    (xs : List (Option F)) (key : Option F) : Syn F Unit := do
  let res ← newWit key
  let _ ← synUp xs.length (hashInput rounds round xs) ⟨res, key⟩
  pure ()

/-- Running the body: in setup mode the inner keys `k` are arbitrary. -/
theorem hashBody_run {e rounds w : Nat} {cs : List F} {round : VarVal F → VarVal F → Nat → VarVal F → Syn F (VarVal F)}
    (hr : HashRoundSpec e cs round) (hc : ∀ xIn key j h, Cnt (round xIn key j h) w 0) (h0 : 0 < rounds)
    (hcs : rounds ≤ cs.length) (b : Bool) (xs : List F) (κ : F) (k : Nat → F)
    (hk : b = false → ∀ i, k i = resSeq (fun x k => hashSeq e cs x k rounds + k) (fun i => xs[i]?.getD 0) k κ i) :
    Run (hashBody rounds round (xs.map (opt b)) (opt b κ)) (CS.init F b) ([], [])
      (if 0 < xs.length then [resSeq (fun x k => hashSeq e cs x k rounds + k) (fun i => xs[i]?.getD 0) k κ xs.length] else [])
      (fun _ s a => At s a (.wit 0) κ ∧ ∀ i < xs.length, At s a (.wit (1 + (rounds * w + 5) * i)) (xs[i]?.getD 0)) := by
  set H : F → F → F := fun x k => hashSeq e cs x k rounds + k with hH
  set x : Nat → F := fun i => xs[i]?.getD 0 with hx
  unfold hashBody
  refine Run.bind0 ((Run.newWit_pos (good_init b) κ (fun hb => opt_some hb)).cnt (Cnt.newWit _)) ?_
  rintro v1 s1 a1 o1 ⟨⟨h1, p1⟩, c1⟩
  have m1 : s1.setup = b := by rw [o1.mode]; rfl
  have c1' : s1.nWit = 1 := c1
  have p1' : v1 = .wit 0 := p1
  have hloop := Run.synUp (n := (xs.map (opt b)).length) (f := hashInput rounds round (xs.map (opt b)))
    (t := ⟨v1, opt b κ⟩) o1.good
    (fun i => if i + 1 = xs.length then [resSeq H x k κ xs.length] else [])
    (fun i h s' a' => VAt s' a' h (resSeq H x k κ i) ∧ (i < xs.length → s'.nWit = 1 + (rounds * w + 5) * i) ∧
      ∀ j < i, At s' a' (.wit (1 + (rounds * w + 5) * j)) (x j))
    ⟨⟨h1, by rw [m1]; rfl⟩, fun _ => by rw [c1']; ring, fun j hj => by omega⟩
    (fun i hi t s' a' o ht => by
      obtain ⟨hres, hcnt, hpos⟩ := ht
      rw [List.length_map] at hi
      have mm : s'.setup = b := by rw [o.mode, m1]
      have hxi : at! (xs.map (opt b)) i = .ok (opt s'.setup (x i)) := by
        simp only [mm, at!_eq_ok, List.getElem?_map, hx, List.getElem?_eq_getElem hi, Option.map_some, Option.getD_some]
      have := (hashInput_run hr h0 hcs o.good (i := i) (x := x i) (k := k i) (ρ := resSeq H x k κ i) hxi
        (fun hs => hk (by rw [← mm]; exact hs) i) hres).cnt (hashInput_cnt hc _ _ _)
      rw [List.length_map] at this
      have e1 : (if i + 1 = xs.length then [resSeq H x k κ i + x i + (hashSeq e cs (x i) (k i) rounds + k i)] else []) =
          if i + 1 = xs.length then [resSeq H x k κ xs.length] else [] := by
        by_cases h : i + 1 = xs.length
        · rw [if_pos h, if_pos h, ← h]; rfl
        · rw [if_neg h, if_neg h]
      rw [← e1]
      refine this.weaken (fun r s2 a2 o2 hq => ?_)
      obtain ⟨⟨q1, q2⟩, q3⟩ := hq
      rw [hcnt hi] at q2 q3
      refine ⟨q1, fun hlt => ?_, fun j hj => ?_⟩
      · rw [q3, if_neg (by omega)]; ring
      · by_cases hji : j = i
        · rw [hji]; exact q2
        · exact o2.mono _ _ (hpos j (by omega)))
  rw [flatMap_single, List.length_map] at hloop
  have e2 : (if 0 < xs.length ∧ xs.length ≤ xs.length then [resSeq H x k κ xs.length] else []) =
      if 0 < xs.length then [resSeq H x k κ xs.length] else [] := by simp
  rw [e2] at hloop
  rw [← List.length_map (f := opt b)] at hloop
  simp only [List.length_map] at hloop ⊢
  exact Run.last hloop (fun _ => rfl) (fun _ _ _ o hq => ⟨p1' ▸ o.mono _ _ h1, hq.2.2⟩)

/-- What a satisfying assignment of the body says. -/
theorem hashBody_snd {e rounds w : Nat} {cs : List F} {round : VarVal F → VarVal F → Nat → VarVal F → Syn F (VarVal F)}
    (hr : HashRoundSnd e cs round) (hc : ∀ xIn key j h, Cnt (round xIn key j h) w 0) (h0 : 0 < rounds)
    (xs : List (Option F)) (hxs : 0 < xs.length) (key : Option F) :
    Snd (hashBody rounds round xs key) (fun _ s _ a => s.nInst = 0 → s.nWit = 0 →
      ∃ k : Nat → F, valA a (.inst 0) = resSeq (fun x k => hashSeq e cs x k rounds + k)
        (fun i => valA a (.wit (1 + (rounds * w + 5) * i))) k (valA a (.wit 0)) xs.length) := by
  unfold hashBody
  refine (Snd.bind (Snd.newWit key) (fun v1 => Snd.bind
    (Snd.synUp (fun i res s a => (∃ k : Nat → F, valA a res.var = resSeq (fun x k => hashSeq e cs x k rounds + k)
        (fun i => valA a (.wit (1 + (rounds * w + 5) * i))) k (valA a (.wit 0)) i) ∧
        (i < xs.length → s.nInst = 0 ∧ s.nWit = 1 + (rounds * w + 5) * i) ∧ (i = xs.length → res.var = .inst 0))
      (fun i hi t => ((hashInput_snd hr hc h0 xs i t).cnt (hashInput_cnt hc xs i t)).weaken ?_))
    (fun _ => Snd.pure ()))).weaken ?_
  · rintro res' s s' a ⟨⟨⟨k1, h1⟩, h2⟩, h3, h4⟩ ⟨⟨k, hk⟩, i2, -⟩
    obtain ⟨n0, w0⟩ := i2 hi
    rw [w0] at h1 h3
    rw [n0] at h2 h4
    refine ⟨⟨fun j => if j = i then k1 else k j, ?_⟩, fun hlt => ?_, h2⟩
    · have hcong : ∀ j ≤ i, resSeq (fun x k => hashSeq e cs x k rounds + k)
          (fun i => valA a (.wit (1 + (rounds * w + 5) * i))) (fun j => if j = i then k1 else k j) (valA a (.wit 0)) j =
          resSeq (fun x k => hashSeq e cs x k rounds + k)
          (fun i => valA a (.wit (1 + (rounds * w + 5) * i))) k (valA a (.wit 0)) j := by
        intro j
        induction j with
        | zero => intro _; rfl
        | succ j ih =>
          intro hj
          rw [resSeq, resSeq, ih (by omega)]
          rw [if_neg (by omega)]
      rw [resSeq, hcong i (Nat.le_refl _), ← hk, h1]
      simp
    · rw [if_neg (by omega)] at h3 h4
      exact ⟨by omega, by rw [h3]; ring⟩
  · rintro _ s s' a ⟨v1, s1, ⟨e1, w1, n1⟩, st, s2, hl, -, -⟩ hs0 hs1
    obtain ⟨⟨k, hk⟩, -, h3⟩ := hl ⟨⟨fun _ => 0, by rw [e1, hs1]; rfl⟩, fun _ => ⟨by omega, by omega⟩, fun h => by omega⟩
    exact ⟨k, by rw [← h3 rfl, hk]⟩

/-! ### Closed forms -/

theorem hashSeq_forUp (e : Nat) (cs : List F) (x k : F) (f : F → F) (hf : ∀ t, f t = t ^ e) (n : Nat)
    (hn : n ≤ cs.length) :
    forUp n (fun i h => do
      let t ← (if i = 0 then pure (x + k)
        else do
          let c ← at! cs i
          pure (h + k + c) : R F)
      pure (f t)) 0 = .ok (hashSeq e cs x k n) := by
  induction n with
  | zero => rfl
  | succ n ih =>
    rw [forUp_succ, ih (by omega), bind_ok, hashSeq]
    by_cases h : n = 0
    · rw [if_pos h, if_pos h]
      show Except.ok (f _) = _
      rw [hf]
    · rw [if_neg h, if_neg h, at!_of_lt (by omega), List.getElem?_eq_getElem (by omega)]
      show Except.ok (f _) = _
      rw [hf]; rfl

theorem mimc5Hash_hashSeq (x k : F) (cs : List F) (h : 10 ≤ cs.length) :
    mimc5Hash x k cs = .ok (hashSeq 5 cs x k MIMC5_HASH_ROUNDS + k) := by
  unfold mimc5Hash
  rw [hashSeq_forUp 5 cs x k (fun t => t * t * (t * t) * t) (fun t => by ring) MIMC5_HASH_ROUNDS h]
  rfl

theorem mimc7Hash_hashSeq (x k : F) (cs : List F) (h : 91 ≤ cs.length) :
    mimc7Hash x k cs = .ok (hashSeq 7 cs x k MIMC7_HASH_ROUNDS + k) := by
  unfold mimc7Hash
  rw [hashSeq_forUp 7 cs x k (fun t => t * t * (t * t) * (t * t) * t) (fun t => by ring) MIMC7_HASH_ROUNDS h]
  rfl

/-- The accumulator of the real hash. -/
def accSeq (H : F → F → F) (x : Nat → F) (r : F) : Nat → F
  | 0 => r
  | i + 1 => accSeq H x r i + x i + H (x i) (accSeq H x r i)

theorem resSeq_accSeq (H : F → F → F) (x : Nat → F) (r : F) (i : Nat) :
    accSeq H x r i = resSeq H x (accSeq H x r) r i := by
  induction i with
  | zero => rfl
  | succ i ih => rw [accSeq, resSeq, ← ih]

theorem forEach_accSeq (H : F → F → F) (xs : List F) (r : F) (f : F → F → R F) (hf : ∀ x r, f x r = .ok (r + x + H x r)) :
    forEach xs f r = .ok (accSeq H (fun i => xs[i]?.getD 0) r xs.length) := by
  have gen : ∀ (ys : List F) (r : F), forEach ys f r = .ok (ys.foldl (fun r x => r + x + H x r) r) := by
    intro ys
    induction ys with
    | nil => intro r; rfl
    | cons y ys ih => intro r; rw [forEach_cons, hf, bind_ok, ih]; rfl
  have key : ∀ n ≤ xs.length, (xs.take n).foldl (fun r x => r + x + H x r) r = accSeq H (fun i => xs[i]?.getD 0) r n := by
    intro n
    induction n with
    | zero => intro _; rfl
    | succ n ih =>
      intro hn
      rw [List.take_add_one, List.getElem?_eq_getElem (by omega), List.foldl_append, ih (by omega), accSeq,
        List.getElem?_eq_getElem (by omega)]
      rfl
  rw [gen, ← key _ (Nat.le_refl _), List.take_length]

theorem resSeq_sum (H : F → F → F) (x k : Nat → F) (r : F) (n : Nat) :
    resSeq H x k r n = r + ((List.range n).map x).sum + ((List.range n).map (fun i => H (x i) (k i))).sum := by
  induction n with
  | zero => simp [resSeq]
  | succ n ih =>
    rw [resSeq, ih, List.range_succ]
    simp only [List.map_append, List.sum_append, List.map_cons, List.map_nil, List.sum_cons, List.sum_nil]
    ring

end PoS
