import Verif.Proofs.Circuits
import Verif.Proofs.HashCircuit
import Verif.Properties.Mimc
import Verif.Properties.Space

/-
C44, C47: the stand-alone circuits of the map and of the hash.
-/

namespace PoS

set_option linter.unusedSectionVars false

variable {F : Type} [CommRing F]

/-! ### Running a whole circuit -/

/-- A run in proving mode from the empty system, as it is used in the statements below. -/
theorem run_prove {P : Syn F Unit} {pub : List F} {Q : Unit → CS F → List F × List F → Prop}
    (h : Run P (CS.init F false) ([], []) pub Q) :
    ∃ s, P (CS.init F false) = .ok ((), s) ∧ Satisfies s.cons (s.inst, s.wit) ∧ s.inst = pub ∧
      s.inst.length = s.nInst ∧ s.wit.length = s.nWit := by
  obtain ⟨r, s', a', e, o, -⟩ := h
  have hrec := o.good.recd (by rw [o.mode]; rfl)
  refine ⟨s', e, ?_, ?_, ?_, ?_⟩
  · rw [← hrec]; exact o.good.sat
  · have := o.pubs; rw [hrec] at this; simpa using this
  · have := o.good.li; rw [hrec] at this; exact this
  · have := o.good.lw; rw [hrec] at this; exact this

/-- A run in setup mode, with freely chosen values. -/
theorem run_setup {P : Syn F Unit} {pub : List F} {Q : Unit → CS F → List F × List F → Prop}
    (h : Run P (CS.init F true) ([], []) pub Q) :
    ∃ s w, P (CS.init F true) = .ok ((), s) ∧ s.nInst = pub.length ∧ w.length = s.nWit ∧ Satisfies s.cons (pub, w) ∧
      Q () s (pub, w) := by
  obtain ⟨r, s', a', e, o, hq⟩ := h
  have hp : a' = (pub, a'.2) := Prod.ext (by simpa using o.pubs) rfl
  refine ⟨s', a'.2, e, by rw [← o.good.li, hp], o.good.lw, ?_, ?_⟩
  · rw [← hp]; exact o.good.sat
  · rw [← hp]; exact hq

theorem two_heads {s : CS F} {p w : List F} {l r : F} (h0 : At s (p, w) (.wit 0) l) (h1 : At s (p, w) (.wit 1) r)
    (hw : w.length = s.nWit) : ∃ w', w = l :: r :: w' := by
  have hl : 1 < w.length := by rw [hw]; exact h1.1
  match w, hl with
  | x :: y :: w', _ =>
    have e0 : x = l := by simpa [valA] using h0.2
    have e1 : y = r := by simpa [valA] using h1.2
    exact ⟨w', by rw [e0, e1]⟩

/-! ### C44: the map circuits -/

theorem mimc5DfCircuit_run (b : Bool) (l r : F) (cs : List F) (h : cs.length = 10) :
    Run (mimc5DfCircuit (opt b l) (opt b r) cs) (CS.init F b) ([], []) [(dfSeq 5 cs l r MIMC5_DF_ROUNDS).1]
      (fun _ s a => At s a (.wit 0) l ∧ At s a (.wit 1) r) := by
  unfold mimc5DfCircuit
  rw [if_neg (by simp [h, MIMC5_DF_ROUNDS])]
  refine Run.bind0 ((Run.newWit_pos (good_init b) l (fun hb => opt_some hb)).cnt (Cnt.newWit _)) ?_
  rintro v1 s1 a1 o1 ⟨⟨h1, p1⟩, c1⟩
  refine Run.bind0 (Run.newWit_pos o1.good r (fun hb => opt_some (by rw [o1.mode] at hb; exact hb))) ?_
  rintro v2 s2 a2 o2 ⟨h2, p2⟩
  rw [c1] at p2
  have p1' : v1 = .wit 0 := p1
  have p2' : v2 = .wit 1 := p2
  have m2 : s2.setup = b := by rw [o2.mode, o1.mode]; rfl
  have hl := Run.synUp (n := MIMC5_DF_ROUNDS) (f := mimc5DfRound cs) (t := (⟨v1, opt b l, v2, opt b r⟩ : DfSt F)) o2.good
    (fun i => if i + 1 = MIMC5_DF_ROUNDS then [(dfSeq 5 cs l r MIMC5_DF_ROUNDS).1] else [])
    (fun i st s' a' => DfPost (dfSeq 5 cs l r i).1 (dfSeq 5 cs l r i).2 st s' a')
    ⟨o2.mono _ _ h1, h2, by rw [m2]; rfl, by rw [m2]; rfl⟩ (by
      intro i hi t s' a' o hI
      have hlt : i < cs.length := by rw [h]; exact hi
      have hc : at! cs i = .ok cs[i] := at!_of_lt hlt
      have := mimc5DfRound_run o.good hc hI
      have e : dfSeq 5 cs l r (i + 1) = (((dfSeq 5 cs l r i).1 + cs[i]) ^ 5 + (dfSeq 5 cs l r i).2, (dfSeq 5 cs l r i).1) := by
        rw [dfSeq, List.getElem?_eq_getElem hlt]; rfl
      have e2 : (if i + 1 = MIMC5_DF_ROUNDS then [((dfSeq 5 cs l r i).1 + cs[i]) ^ 5 + (dfSeq 5 cs l r i).2] else []) =
          if i + 1 = MIMC5_DF_ROUNDS then [(dfSeq 5 cs l r MIMC5_DF_ROUNDS).1] else [] := by
        by_cases hi2 : i + 1 = MIMC5_DF_ROUNDS
        · rw [if_pos hi2, if_pos hi2, ← hi2, e]
        · rw [if_neg hi2, if_neg hi2]
      rw [← e2]
      exact this.weaken (fun st s' a' _ hq => by rw [e]; exact hq.1))
  rw [flatMap_single, if_pos (by simp [MIMC5_DF_ROUNDS])] at hl
  exact Run.last hl (fun _ => rfl) (fun _ _ _ o _ =>
    ⟨p1' ▸ o.mono _ _ (o2.mono _ _ h1), p2' ▸ o.mono _ _ h2⟩)

theorem mimc3DfCircuit_run (b : Bool) (l r : F) (cs : List F) (h : cs.length = 322) :
    Run (mimc3DfCircuit (opt b l) (opt b r) cs) (CS.init F b) ([], []) [(dfSeq 3 cs l r MIMC3_DF_ROUNDS).1]
      (fun _ s a => At s a (.wit 0) l ∧ At s a (.wit 1) r) := by
  unfold mimc3DfCircuit
  rw [if_neg (by simp [h, MIMC3_DF_ROUNDS])]
  refine Run.bind0 ((Run.newWit_pos (good_init b) l (fun hb => opt_some hb)).cnt (Cnt.newWit _)) ?_
  rintro v1 s1 a1 o1 ⟨⟨h1, p1⟩, c1⟩
  refine Run.bind0 (Run.newWit_pos o1.good r (fun hb => opt_some (by rw [o1.mode] at hb; exact hb))) ?_
  rintro v2 s2 a2 o2 ⟨h2, p2⟩
  rw [c1] at p2
  have p1' : v1 = .wit 0 := p1
  have p2' : v2 = .wit 1 := p2
  have m2 : s2.setup = b := by rw [o2.mode, o1.mode]; rfl
  have hl := Run.synUp (n := MIMC3_DF_ROUNDS) (f := mimc3DfRound cs) (t := (⟨v1, opt b l, v2, opt b r⟩ : DfSt F)) o2.good
    (fun i => if i + 1 = MIMC3_DF_ROUNDS then [(dfSeq 3 cs l r MIMC3_DF_ROUNDS).1] else [])
    (fun i st s' a' => DfPost (dfSeq 3 cs l r i).1 (dfSeq 3 cs l r i).2 st s' a')
    ⟨o2.mono _ _ h1, h2, by rw [m2]; rfl, by rw [m2]; rfl⟩ (by
      intro i hi t s' a' o hI
      have hlt : i < cs.length := by rw [h]; exact hi
      have hc : at! cs i = .ok cs[i] := at!_of_lt hlt
      have := mimc3DfRound_run o.good hc hI
      have e : dfSeq 3 cs l r (i + 1) = (((dfSeq 3 cs l r i).1 + cs[i]) ^ 3 + (dfSeq 3 cs l r i).2, (dfSeq 3 cs l r i).1) := by
        rw [dfSeq, List.getElem?_eq_getElem hlt]; rfl
      have e2 : (if i + 1 = MIMC3_DF_ROUNDS then [((dfSeq 3 cs l r i).1 + cs[i]) ^ 3 + (dfSeq 3 cs l r i).2] else []) =
          if i + 1 = MIMC3_DF_ROUNDS then [(dfSeq 3 cs l r MIMC3_DF_ROUNDS).1] else [] := by
        by_cases hi2 : i + 1 = MIMC3_DF_ROUNDS
        · rw [if_pos hi2, if_pos hi2, ← hi2, e]
        · rw [if_neg hi2, if_neg hi2]
      rw [← e2]
      exact this.weaken (fun st s' a' _ hq => by rw [e]; exact hq.1))
  rw [flatMap_single, if_pos (by simp [MIMC3_DF_ROUNDS])] at hl
  exact Run.last hl (fun _ => rfl) (fun _ _ _ o _ =>
    ⟨p1' ▸ o.mono _ _ (o2.mono _ _ h1), p2' ▸ o.mono _ _ h2⟩)

theorem dfSeq_full (e : Nat) (cs : List F) (l r : F) : dfSeq e cs l r cs.length = feistel e cs (l, r) := by
  rw [dfSeq_eq e cs l r cs.length (Nat.le_refl _), List.take_length]
  rfl

theorem mimc5Df_dfSeq (l r : F) (cs : List F) (h : cs.length = 10) :
    mimc5Df l r cs = .ok (dfSeq 5 cs l r MIMC5_DF_ROUNDS).1 := by
  rw [mimc5Df_eq l r cs h, ← dfSeq_full, h]; rfl

theorem mimc3Df_dfSeq (l r : F) (cs : List F) (h : cs.length = 322) :
    mimc3Df l r cs = .ok (dfSeq 3 cs l r MIMC3_DF_ROUNDS).1 := by
  rw [mimc3Df_eq l r cs h, ← dfSeq_full, h]; rfl

/-- Invariant of the Feistel loops on satisfying assignments. -/
def DfInv (e : Nat) (cs : List F) (rounds : Nat) (i : Nat) (st : DfSt F) (s : CS F) (a : List F × List F) : Prop :=
  (valA a st.xl, valA a st.xr) = dfSeq e cs (valA a (.wit 0)) (valA a (.wit 1)) i ∧
    s.nInst = (if i = rounds then 1 else 0) ∧ (i = rounds → st.xl = .inst 0)

theorem mimc5DfCircuit_snd (xl xr : Option F) (cs : List F) :
    Snd (mimc5DfCircuit xl xr cs) (fun _ s _ a => s.nInst = 0 → s.nWit = 0 →
      (dfSeq 5 cs (valA a (.wit 0)) (valA a (.wit 1)) MIMC5_DF_ROUNDS).1 = valA a (.inst 0)) := by
  unfold mimc5DfCircuit
  by_cases h : cs.length ≠ MIMC5_DF_ROUNDS
  · rw [if_pos h]
    exact (Snd.lift _).weaken (fun r s s' a hq => by cases hq.1)
  rw [if_neg h]
  refine (Snd.bind (Snd.newWit xl) (fun v1 => Snd.bind (Snd.newWit xr) (fun v2 => Snd.bind
    (Snd.synUp (DfInv 5 cs MIMC5_DF_ROUNDS) (fun i hi t =>
      (mimc5DfRound_snd cs i t).weaken ?_)) (fun _ => Snd.pure ())))).weaken ?_
  · rintro t' s s' a' ⟨h1, h2, h3, h4⟩ ⟨i1, i2, i3⟩
    rw [Prod.ext_iff] at i1
    simp only at i1
    rw [if_neg (by omega)] at i2
    refine ⟨?_, by rw [h4, i2, zero_add], fun hi => by rw [h3 hi, i2]⟩
    rw [h1, h2, dfSeq, i1.1, i1.2]
  · rintro _ s s' a' ⟨v1, s1, ⟨e1, w1, n1⟩, v2, s2, ⟨e2, w2, n2⟩, st, s3, hl, -, -⟩ h0 h0'
    rw [h0'] at e1 w1
    rw [w1] at e2
    obtain ⟨h1, h2, h3⟩ := hl ⟨by simp only; rw [e1, e2]; rfl, by rw [n2, n1, h0]; rfl, fun h => absurd h (by decide)⟩
    rw [← h1, ← h3 rfl]

theorem mimc3DfCircuit_snd (xl xr : Option F) (cs : List F) :
    Snd (mimc3DfCircuit xl xr cs) (fun _ s _ a => s.nInst = 0 → s.nWit = 0 →
      (dfSeq 3 cs (valA a (.wit 0)) (valA a (.wit 1)) MIMC3_DF_ROUNDS).1 = valA a (.inst 0)) := by
  unfold mimc3DfCircuit
  by_cases h : cs.length ≠ MIMC3_DF_ROUNDS
  · rw [if_pos h]
    exact (Snd.lift _).weaken (fun r s s' a hq => by cases hq.1)
  rw [if_neg h]
  refine (Snd.bind (Snd.newWit xl) (fun v1 => Snd.bind (Snd.newWit xr) (fun v2 => Snd.bind
    (Snd.synUp (DfInv 3 cs MIMC3_DF_ROUNDS) (fun i hi t =>
      (mimc3DfRound_snd cs i t).weaken ?_)) (fun _ => Snd.pure ())))).weaken ?_
  · rintro t' s s' a' ⟨h1, h2, h3, h4⟩ ⟨i1, i2, i3⟩
    rw [Prod.ext_iff] at i1
    simp only at i1
    rw [if_neg (by omega)] at i2
    refine ⟨?_, by rw [h4, i2, zero_add], fun hi => by rw [h3 hi, i2]⟩
    rw [h1, h2, dfSeq, i1.1, i1.2]
  · rintro _ s s' a' ⟨v1, s1, ⟨e1, w1, n1⟩, v2, s2, ⟨e2, w2, n2⟩, st, s3, hl, -, -⟩ h0 h0'
    rw [h0'] at e1 w1
    rw [w1] at e2
    obtain ⟨h1, h2, h3⟩ := hl ⟨by simp only; rw [e1, e2]; rfl, by rw [n2, n1, h0]; rfl, fun h => absurd h (by decide)⟩
    rw [← h1, ← h3 rfl]

/-- Completeness: synthesis with the secrets `l`, `r` succeeds, the recorded assignment satisfies
every constraint, and its only public input is the map of the secrets. -/
theorem C44_complete (l r : F) (cs : List F) :
    (cs.length = 10 → ∃ s y, mimc5DfCircuit (some l) (some r) cs (CS.init F false) = .ok ((), s) ∧
      mimc5Df l r cs = .ok y ∧ s.inst = [y] ∧ Satisfies s.cons (s.inst, s.wit)) ∧
    (cs.length = 322 → ∃ s y, mimc3DfCircuit (some l) (some r) cs (CS.init F false) = .ok ((), s) ∧
      mimc3Df l r cs = .ok y ∧ s.inst = [y] ∧ Satisfies s.cons (s.inst, s.wit)) := by
  constructor
  · intro h
    obtain ⟨s, e, hs, hp, -⟩ := run_prove (mimc5DfCircuit_run false l r cs h)
    exact ⟨s, _, e, mimc5Df_dfSeq l r cs h, hp, hs⟩
  · intro h
    obtain ⟨s, e, hs, hp, -⟩ := run_prove (mimc3DfCircuit_run false l r cs h)
    exact ⟨s, _, e, mimc3Df_dfSeq l r cs h, hp, hs⟩

/-- Soundness: synthesis without values, as in key generation, succeeds with one public input, and
in every satisfying assignment the public input is the map of the first two private variables
(the secrets); conversely every pair of secrets extends to a satisfying assignment. -/
theorem C44_sound (cs : List F) :
    (cs.length = 10 → ∃ s, mimc5DfCircuit none none cs (CS.init F true) = .ok ((), s) ∧ s.nInst = 1 ∧
      (∀ y l r w, Satisfies s.cons ([y], l :: r :: w) → mimc5Df l r cs = .ok y) ∧
      ∀ l r, ∃ y w, (l :: r :: w).length = s.nWit ∧ Satisfies s.cons ([y], l :: r :: w)) ∧
    (cs.length = 322 → ∃ s, mimc3DfCircuit none none cs (CS.init F true) = .ok ((), s) ∧ s.nInst = 1 ∧
      (∀ y l r w, Satisfies s.cons ([y], l :: r :: w) → mimc3Df l r cs = .ok y) ∧
      ∀ l r, ∃ y w, (l :: r :: w).length = s.nWit ∧ Satisfies s.cons ([y], l :: r :: w)) := by
  constructor
  · intro h
    obtain ⟨s, w, e, hn, -⟩ := run_setup (mimc5DfCircuit_run true 0 0 cs h)
    refine ⟨s, e, hn, fun y l r w hs => ?_, fun l r => ?_⟩
    · have := (mimc5DfCircuit_snd none none cs _ _ _ e _ hs).2 rfl rfl
      rw [mimc5Df_dfSeq l r cs h]
      exact congrArg Except.ok this
    · obtain ⟨s', w, e', hn', hw, hs, h0, h1⟩ := run_setup (mimc5DfCircuit_run true l r cs h)
      obtain rfl : s = s' := by
        have := e.symm.trans e'
        injection this with this
        exact (Prod.mk.inj this).2
      obtain ⟨w', rfl⟩ := two_heads h0 h1 hw
      exact ⟨_, w', hw, hs⟩
  · intro h
    obtain ⟨s, w, e, hn, -⟩ := run_setup (mimc3DfCircuit_run true 0 0 cs h)
    refine ⟨s, e, hn, fun y l r w hs => ?_, fun l r => ?_⟩
    · have := (mimc3DfCircuit_snd none none cs _ _ _ e _ hs).2 rfl rfl
      rw [mimc3Df_dfSeq l r cs h]
      exact congrArg Except.ok this
    · obtain ⟨s', w, e', hn', hw, hs, h0, h1⟩ := run_setup (mimc3DfCircuit_run true l r cs h)
      obtain rfl : s = s' := by
        have := e.symm.trans e'
        injection this with this
        exact (Prod.mk.inj this).2
      obtain ⟨w', rfl⟩ := two_heads h0 h1 hw
      exact ⟨_, w', hw, hs⟩

/-- A pair of secrets and constants: the public image of the honest assignment is not zero. -/
example : (match mimc5Df (F := ZMod 103) 1 2 [1, 2, 3, 4, 5, 6, 7, 8, 9, 10] with
    | .ok y => decide (y = 15)
    | _ => false) = true := by decide +kernel

/-! ### C47: the hash circuits -/

theorem mimc5HashCircuit_body (xs : List (Option F)) (key : Option F) (cs : List F) (h : cs.length = 10) :
    mimc5HashCircuit xs key cs = hashBody MIMC5_HASH_ROUNDS (mimc5HashRound cs) xs key := by
  unfold mimc5HashCircuit hashBody
  rw [if_neg (by simp [h, MIMC5_HASH_ROUNDS])]

theorem mimc7HashCircuit_body (xs : List (Option F)) (key : Option F) (cs : List F) (h : cs.length = 91) :
    mimc7HashCircuit xs key cs = hashBody MIMC7_HASH_ROUNDS (mimc7HashRound cs) xs key := by
  unfold mimc7HashCircuit hashBody
  rw [if_neg (by simp [h, MIMC7_HASH_ROUNDS])]

/-- Completeness: the recorded assignment of an honest run satisfies the circuit and its public
input is the hash of the inputs under the key; without inputs there is no public input. -/
theorem C47_complete (xs : List F) (key : F) (cs : List F) :
    (cs.length = 10 → ∃ s d, mimc5HashCircuit (xs.map some) (some key) cs (CS.init F false) = .ok ((), s) ∧
      multiMimc5Hash xs key cs = .ok d ∧ s.inst = (if xs = [] then [] else [d]) ∧ Satisfies s.cons (s.inst, s.wit)) ∧
    (cs.length = 91 → ∃ s d, mimc7HashCircuit (xs.map some) (some key) cs (CS.init F false) = .ok ((), s) ∧
      multiMimc7Hash xs key cs = .ok d ∧ s.inst = (if xs = [] then [] else [d]) ∧ Satisfies s.cons (s.inst, s.wit)) := by
  have hif : ∀ d : F, (if 0 < xs.length then [d] else []) = if xs = [] then [] else [d] := by
    intro d; cases xs <;> simp
  constructor
  · intro h
    obtain ⟨s, e, hs, hp, -⟩ := run_prove (hashBody_run (mimc5HashRound_run cs) (mimc5HashRound_cnt cs)
      (show 0 < MIMC5_HASH_ROUNDS by decide) (by rw [h]; decide) false xs key _
      (fun _ i => resSeq_accSeq (fun x k => hashSeq 5 cs x k MIMC5_HASH_ROUNDS + k) _ key i))
    refine ⟨s, _, by rw [mimc5HashCircuit_body _ _ _ h]; exact e,
      forEach_accSeq (fun x k => hashSeq 5 cs x k MIMC5_HASH_ROUNDS + k) xs key _ (fun x r => ?_), ?_, hs⟩
    · rw [mimc5Hash_hashSeq x r cs (by omega)]; rfl
    · rw [hp, ← resSeq_accSeq, hif]
  · intro h
    obtain ⟨s, e, hs, hp, -⟩ := run_prove (hashBody_run (mimc7HashRound_run cs) (mimc7HashRound_cnt cs)
      (show 0 < MIMC7_HASH_ROUNDS by decide) (by rw [h]; decide) false xs key _
      (fun _ i => resSeq_accSeq (fun x k => hashSeq 7 cs x k MIMC7_HASH_ROUNDS + k) _ key i))
    refine ⟨s, _, by rw [mimc7HashCircuit_body _ _ _ h]; exact e,
      forEach_accSeq (fun x k => hashSeq 7 cs x k MIMC7_HASH_ROUNDS + k) xs key _ (fun x r => ?_), ?_, hs⟩
    · rw [mimc7Hash_hashSeq x r cs (by omega)]; rfl
    · rw [hp, ← resSeq_accSeq, hif]

/-- The general form of the two statements below. -/
theorem hashBody_exact {e rounds w : Nat} {cs : List F} {round : VarVal F → VarVal F → Nat → VarVal F → Syn F (VarVal F)}
    (hr : HashRoundSpec e cs round) (hr' : HashRoundSnd e cs round) (hc : ∀ xIn key j h, Cnt (round xIn key j h) w 0)
    (h0 : 0 < rounds) (hcs : rounds ≤ cs.length) (n : Nat) (hn : 0 < n) :
    ∃ s, hashBody rounds round (List.replicate n none) none (CS.init F true) = .ok ((), s) ∧ s.nInst = 1 ∧
      ∀ (κ d : F) (xs : List F), xs.length = n →
        ((∃ v, v.length = s.nWit ∧ v[0]? = some κ ∧ (∀ i < n, v[1 + (rounds * w + 5) * i]? = xs[i]?) ∧
          Satisfies s.cons ([d], v)) ↔
        ∃ hs : List F, List.Forall₂ (fun x h => ∃ k, h = hashSeq e cs x k rounds + k) xs hs ∧ d = κ + xs.sum + hs.sum) := by
  have hnone : ∀ xs : List F, xs.length = n → xs.map (opt true) = List.replicate n none := by
    intro xs hx
    rw [← hx, List.eq_replicate_iff]
    exact ⟨by simp, fun b hb => by obtain ⟨x, -, rfl⟩ := List.mem_map.mp hb; rfl⟩
  have hset := fun (xs : List F) (κ : F) (k : Nat → F) => run_setup (hashBody_run hr hc h0 hcs true xs κ k (fun h => by cases h))
  obtain ⟨s, v0, he, hni, -⟩ := hset (List.replicate n 0) 0 (fun _ => 0)
  rw [hnone _ (by simp)] at he
  have hni1 : s.nInst = 1 := by rw [hni, if_pos (by simpa using hn)]; rfl
  refine ⟨s, he, hni1, fun κ d xs hx => ⟨?_, ?_⟩⟩
  · rintro ⟨v, hv, v0, vx, hs⟩
    obtain ⟨k, hk⟩ := (hashBody_snd hr' hc h0 (List.replicate n none) (by simpa using hn) none _ _ _ he _ hs).2 rfl rfl
    have hxi : ∀ i < n, valA (([d], v) : List F × List F) (.wit (1 + (rounds * w + 5) * i)) = xs[i]?.getD 0 := by
      intro i hi
      simp only [valA]; rw [vx i hi]
    have hκ : valA (([d], v) : List F × List F) (.wit 0) = κ := by simp only [valA]; rw [v0]; rfl
    have hd : valA (([d], v) : List F × List F) (.inst 0) = d := rfl
    rw [hκ, hd, resSeq_sum, List.length_replicate] at hk
    have hmap : (List.range n).map (fun i => valA (([d], v) : List F × List F) (.wit (1 + (rounds * w + 5) * i))) = xs := by
      apply List.ext_getElem (by simp [hx])
      intro i h1 h2
      rw [List.getElem_map, List.getElem_range, hxi i (by omega), List.getElem?_eq_getElem h2]; rfl
    rw [hmap] at hk
    refine ⟨_, ?_, hk⟩
    rw [List.forall₂_iff_get]
    refine ⟨by simp [hx], fun i h1 h2 => ⟨k i, ?_⟩⟩
    simp only [List.get_eq_getElem, List.getElem_map, List.getElem_range]
    rw [hxi i (by omega), List.getElem?_eq_getElem h1]; rfl
  · rintro ⟨hs, hf, rfl⟩
    obtain ⟨hl, hf⟩ := List.forall₂_iff_get.mp hf
    have hex : ∀ i, ∃ k, ∀ h1 : i < xs.length, ∀ h2 : i < hs.length, hs[i] = hashSeq e cs xs[i] k rounds + k := by
      intro i
      by_cases h1 : i < xs.length
      · obtain ⟨k, hk⟩ := hf i h1 (by omega)
        exact ⟨k, fun _ _ => hk⟩
      · exact ⟨0, fun h => absurd h h1⟩
    choose k hk using hex
    obtain ⟨s', v, e', hn', hv, hsat, hq0, hqx⟩ := hset xs κ k
    rw [hnone _ hx] at e'
    obtain rfl : s = s' := by
      have := he.symm.trans e'
      injection this with this
      exact (Prod.mk.inj this).2
    have hget : ∀ {p i x}, At s (p, v) (.wit i) x → v[i]? = some x := by
      intro p i x h
      have h1 : i < v.length := by rw [hv]; exact h.1
      have h2 := h.2
      simp only [valA] at h2
      rw [List.getElem?_eq_getElem h1] at h2 ⊢
      rw [← h2]; rfl
    refine ⟨v, hv, hget hq0, fun i hi => ?_, ?_⟩
    · rw [hget (hqx i (by omega)), List.getElem?_eq_getElem (by omega)]; rfl
    · rw [if_pos (by omega), resSeq_sum] at hsat
      have m1 : (List.range xs.length).map (fun i => xs[i]?.getD 0) = xs := by
        apply List.ext_getElem (by simp)
        intro i h1 h2
        rw [List.getElem_map, List.getElem_range, List.getElem?_eq_getElem h2]; rfl
      have m2 : (List.range xs.length).map (fun i => hashSeq e cs (xs[i]?.getD 0) (k i) rounds + k i) = hs := by
        apply List.ext_getElem (by simp [hl])
        intro i h1 h2
        rw [List.getElem_map, List.getElem_range, List.getElem?_eq_getElem (by omega), hk i (by omega) h2]; rfl
      rw [m1, m2] at hsat
      exact hsat

/-- The hash circuit on two inputs over a small field; its public input is not zero. -/
example : (match mimc5HashCircuit (F := ZMod 103) [some 1, some 2] (some 3) [1, 2, 3, 4, 5, 6, 7, 8, 9, 10]
      (CS.init (ZMod 103) false), multiMimc5Hash (F := ZMod 103) [1, 2] 3 [1, 2, 3, 4, 5, 6, 7, 8, 9, 10] with
    | .ok ((), s), .ok d => decide (s.inst = [d] ∧ d ≠ 0)
    | _, _ => false) = true := by decide +kernel

/-- Exactly what the mimc5 hash circuit proves, for any number `n > 0` of inputs: private variable
0 is the key, `1 + 45 i` is input `i`; an assignment of these extends to a satisfying one with
public digest `d` iff `d` is the key plus the sum of the inputs plus a sum of hashes, each of them
the hash of its input under *some* key — not under the chained one. -/
theorem C47_relation5 (cs : List F) (h : cs.length = 10) (n : Nat) (hn : 0 < n) :
    ∃ s, mimc5HashCircuit (List.replicate n none) none cs (CS.init F true) = .ok ((), s) ∧ s.nInst = 1 ∧
      ∀ (κ d : F) (xs : List F), xs.length = n →
        ((∃ v, v.length = s.nWit ∧ v[0]? = some κ ∧ (∀ i < n, v[1 + 45 * i]? = xs[i]?) ∧ Satisfies s.cons ([d], v)) ↔
        ∃ hs : List F, List.Forall₂ (fun x h => ∃ k, mimc5Hash x k cs = .ok h) xs hs ∧ d = κ + xs.sum + hs.sum) := by
  obtain ⟨s, e, h1, h2⟩ := hashBody_exact (mimc5HashRound_run cs) (mimc5HashRound_snd cs) (mimc5HashRound_cnt cs)
    (show 0 < MIMC5_HASH_ROUNDS by decide) (by rw [h]; decide) n hn
  refine ⟨s, by rw [mimc5HashCircuit_body _ _ _ h]; exact e, h1, fun κ d xs hx => (h2 κ d xs hx).trans ?_⟩
  have hfun : (fun x h : F => ∃ k, mimc5Hash x k cs = .ok h) =
      fun x h => ∃ k, h = hashSeq 5 cs x k MIMC5_HASH_ROUNDS + k := by
    funext x y
    apply propext
    refine exists_congr (fun k => ?_)
    rw [mimc5Hash_hashSeq x k cs (by omega)]
    exact ⟨fun h => (Except.ok.inj h).symm, fun h => by rw [h]⟩
  rw [hfun]

/-- The same for the mimc7 hash circuit, whose inputs are the private variables `1 + 460 i`. -/
theorem C47_relation7 (cs : List F) (h : cs.length = 91) (n : Nat) (hn : 0 < n) :
    ∃ s, mimc7HashCircuit (List.replicate n none) none cs (CS.init F true) = .ok ((), s) ∧ s.nInst = 1 ∧
      ∀ (κ d : F) (xs : List F), xs.length = n →
        ((∃ v, v.length = s.nWit ∧ v[0]? = some κ ∧ (∀ i < n, v[1 + 460 * i]? = xs[i]?) ∧ Satisfies s.cons ([d], v)) ↔
        ∃ hs : List F, List.Forall₂ (fun x h => ∃ k, mimc7Hash x k cs = .ok h) xs hs ∧ d = κ + xs.sum + hs.sum) := by
  obtain ⟨s, e, h1, h2⟩ := hashBody_exact (mimc7HashRound_run cs) (mimc7HashRound_snd cs) (mimc7HashRound_cnt cs)
    (show 0 < MIMC7_HASH_ROUNDS by decide) (by rw [h]; decide) n hn
  refine ⟨s, by rw [mimc7HashCircuit_body _ _ _ h]; exact e, h1, fun κ d xs hx => (h2 κ d xs hx).trans ?_⟩
  have hfun : (fun x h : F => ∃ k, mimc7Hash x k cs = .ok h) =
      fun x h => ∃ k, h = hashSeq 7 cs x k MIMC7_HASH_ROUNDS + k := by
    funext x y
    apply propext
    refine exists_congr (fun k => ?_)
    rw [mimc7Hash_hashSeq x k cs (by omega)]
    exact ⟨fun h => (Except.ok.inj h).symm, fun h => by rw [h]⟩
  rw [hfun]

/-- So the digest is not the hash: over the shipped field there are constants, a key, an input and
a digest which is not the hash of the input under the key, but for which the circuit is
satisfied. -/
theorem C47_digest_not_bound : ∃ (cs : List (ZMod blsR)) (s : CS (ZMod blsR)) (κ x d : ZMod blsR) (v : List (ZMod blsR)),
    cs.length = 10 ∧ mimc5HashCircuit [none] none cs (CS.init _ true) = .ok ((), s) ∧ v.length = s.nWit ∧
    v[0]? = some κ ∧ v[1]? = some x ∧ Satisfies s.cons ([d], v) ∧ multiMimc5Hash [x] κ cs ≠ .ok d := by
  have hne : (match mimc5Hash (2 : ZMod blsR) 0 [1, 2, 3, 4, 5, 6, 7, 8, 9, 10],
      multiMimc5Hash [(2 : ZMod blsR)] 1 [1, 2, 3, 4, 5, 6, 7, 8, 9, 10] with
      | .ok y, .ok d => decide (d ≠ 1 + 2 + y)
      | _, _ => false) = true := by decide +kernel
  obtain ⟨s, e, -, h⟩ := C47_relation5 (F := ZMod blsR) [1, 2, 3, 4, 5, 6, 7, 8, 9, 10] rfl 1 (by omega)
  obtain ⟨y, hy⟩ : ∃ y, mimc5Hash (2 : ZMod blsR) 0 [1, 2, 3, 4, 5, 6, 7, 8, 9, 10] = .ok y :=
    ⟨_, mimc5Hash_eq _ _ _ (by simp)⟩
  obtain ⟨v, hv, v0, v1, hs⟩ := (h 1 (1 + 2 + y) [2] rfl).mpr ⟨[y], .cons ⟨0, hy⟩ .nil, by simp⟩
  refine ⟨_, s, 1, 2, _, v, rfl, e, hv, v0, by simpa using v1 0 (by omega), hs, fun hd => ?_⟩
  rw [hy, hd] at hne
  simp at hne

end PoS
