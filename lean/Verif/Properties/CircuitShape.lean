import Verif.Proofs.SameCircuit
import Verif.Properties.SpaceCircuit

/-
C49, C50, C56, C60: shape of the circuits; the power, equality and sloth circuits.
-/

namespace PoS

set_option linter.unusedSectionVars false

/-! ### C49: keys fit -/

/-- For each circuit any two successful runs with the same numbers of inputs — in key generation
or proving, with whatever values — produce the same numbers of variables and the same
constraints. -/
theorem C49_shape {F : Type} [CommRing F] (b b' : Bool) (s s' : CS F) :
    (∀ xl xr xl' xr' cs, mimc3DfCircuit xl xr cs (CS.init F b) = .ok ((), s) →
      mimc3DfCircuit xl' xr' cs (CS.init F b') = .ok ((), s') → s.nInst = s'.nInst ∧ s.nWit = s'.nWit ∧ s.cons = s'.cons) ∧
    (∀ xl xr xl' xr' cs, mimc5DfCircuit xl xr cs (CS.init F b) = .ok ((), s) →
      mimc5DfCircuit xl' xr' cs (CS.init F b') = .ok ((), s') → s.nInst = s'.nInst ∧ s.nWit = s'.nWit ∧ s.cons = s'.cons) ∧
    (∀ xs xs' k k' cs, xs.length = xs'.length → mimc5HashCircuit xs k cs (CS.init F b) = .ok ((), s) →
      mimc5HashCircuit xs' k' cs (CS.init F b') = .ok ((), s') → s.nInst = s'.nInst ∧ s.nWit = s'.nWit ∧ s.cons = s'.cons) ∧
    (∀ xs xs' k k' cs, xs.length = xs'.length → mimc7HashCircuit xs k cs (CS.init F b) = .ok ((), s) →
      mimc7HashCircuit xs' k' cs (CS.init F b') = .ok ((), s') → s.nInst = s'.nInst ∧ s.nWit = s'.nWit ∧ s.cons = s'.cons) ∧
    (∀ g g' bits bits', powCircuit g bits (CS.init F b) = .ok ((), s) →
      powCircuit g' bits' (CS.init F b') = .ok ((), s') → s.nInst = s'.nInst ∧ s.nWit = s'.nWit ∧ s.cons = s'.cons) ∧
    (∀ x1 x2 x1' x2' bits bits' d, equalCircuit x1 x2 bits d (CS.init F b) = .ok ((), s) →
      equalCircuit x1' x2' bits' d (CS.init F b') = .ok ((), s') → s.nInst = s'.nInst ∧ s.nWit = s'.nWit ∧ s.cons = s'.cons) := by
  have e0 : ShapeEq (CS.init F b) (CS.init F b') := ⟨rfl, rfl, rfl⟩
  refine ⟨fun xl xr xl' xr' cs h h' => (mimc3DfCircuit_same xl xr xl' xr' cs _ _ e0 _ _ _ _ h h').2,
    fun xl xr xl' xr' cs h h' => (mimc5DfCircuit_same xl xr xl' xr' cs _ _ e0 _ _ _ _ h h').2,
    fun xs xs' k k' cs hl h h' => (mimc5HashCircuit_same hl k k' cs _ _ e0 _ _ _ _ h h').2,
    fun xs xs' k k' cs hl h h' => (mimc7HashCircuit_same hl k k' cs _ _ e0 _ _ _ _ h h').2,
    fun g g' bits bits' h h' => ?_, fun x1 x2 x1' x2' bits bits' d h h' => ?_⟩
  · have hl : ∀ {b g bits s}, powCircuit g bits (CS.init F b) = .ok ((), s) → bits.length = POW_INPUT_SIZE := by
      intro b g bits s h
      by_contra hne
      unfold powCircuit at h
      rw [if_pos hne] at h
      cases h
    exact (powCircuit_same g g' bits bits' (by rw [hl h, hl h']) _ _ e0 _ _ _ _ h h').2
  · have hl : ∀ {b x1 x2 bits s}, equalCircuit x1 x2 bits d (CS.init F b) = .ok ((), s) → bits.length = EQUAL_INPUT_SIZE := by
      intro b x1 x2 bits s h
      by_contra hne
      unfold equalCircuit at h
      rw [if_pos hne] at h
      cases h
    exact (equalCircuit_same x1 x1' x2 x2' bits bits' d (by rw [hl h, hl h']) _ _ e0 _ _ _ _ h h').2

/-- The space circuit: every run of the second response with `count` responses has the constraint
system of the key generation for `count` responses. -/
theorem C49_space_shape {q : Nat} (n ySize count : Nat) (dcs hcs : List (ZMod q)) (s s' : CS (ZMod q)) (key m : ZMod q)
    (xs : List (ZMod q)) (challenges idxs : List Nat) (hx : xs.length = count)
    (h : constructCircuit n ySize count dcs hcs = .ok ((), s))
    (h' : response2 n ySize key xs m dcs challenges idxs hcs = .ok ((), s')) :
    s.nInst = s'.nInst ∧ s.nWit = s'.nWit ∧ s.cons = s'.cons := by
  unfold response2 at h'
  obtain ⟨yns, -, h'⟩ := bind_eq_ok.mp h'
  unfold constructCircuit at h
  exact (spaceCircuit_same n ySize _ _ _ _ (xs := List.replicate count none) (xs' := xs.map some) (by simp [hx]) dcs _ _ hcs (CS.init _ true) (CS.init _ false) ⟨rfl, rfl, rfl⟩ _ _ _ _ h h').2

/-- With any other number of responses the system has a different number of public inputs, and the
verifier panics whatever the proof: an honest prover that found fewer preimages than the key
generation assumed (50 in the code) cannot convince. -/
theorem C49_count_mismatch {q : Nat} {n ySize : Nat} (h1 : 1 ≤ n) (hny : n ≤ ySize) (h256 : ySize ≤ 256)
    {dcs hcs : List (ZMod q)} (hd : dcs.length = 10) (hh : hcs.length = 10) (count : Nat) (hc : 0 < count) :
    ∃ s, constructCircuit n ySize count dcs hcs = .ok ((), s) ∧
      (∀ key m xs challenges idxs s', xs.length ≠ count →
        response2 n ySize key xs m dcs challenges idxs hcs = .ok ((), s') → s'.nInst ≠ s.nInst) ∧
      ∀ (pairing : List (ZMod q) → Option Bool) (key m : ZMod q) (challenges idxs : List Nat) (xHash : ZMod q), idxs.length ≠ count → (∀ i ∈ idxs, i < challenges.length) →
        spaceVerify (s.nInst + 1) pairing key m challenges idxs xHash = .error .assertion := by
  obtain ⟨s, e, hn, -⟩ := C46_every_statement_provable h1 hny h256 hd hh count hc
  refine ⟨s, e, fun key m xs challenges idxs s' hne h' => ?_, fun pairing key m challenges idxs xHash hne hlt => ?_⟩
  · rcases Nat.eq_zero_or_pos xs.length with h0 | hpos
    · have hrun := run_setup (spaceCircuit_run (q := q) true h1 hny h256 hd hh 0 0 [] [] rfl (fun _ => 0) (fun _ => 1)
        (fun _ _ => false) 0 (fun _ => 0) (fun h => by cases h) (fun i hi => by simp at hi) (fun h => by cases h)
        (fun h => by cases h))
      obtain ⟨s0, w, e0, hn0, -⟩ := hrun
      have := C49_space_shape n ySize 0 dcs hcs s0 s' key m xs challenges idxs h0 e0 h'
      rw [← this.1, hn0, hn]
      simp
    · obtain ⟨s0, e0, hn0, -⟩ := C46_every_statement_provable h1 hny h256 hd hh xs.length hpos
      have := C49_space_shape n ySize xs.length dcs hcs s0 s' key m xs challenges idxs rfl e0 h'
      rw [← this.1, hn0, hn]
      omega
  · unfold spaceVerify
    rw [verifyInputs_eq _ _ _ _ _ hlt, bind_ok]
    unfold verifyProof
    rw [if_pos (by rw [hn]; simp; omega)]

/-- A run with one response where the keys were made for two. -/
example : spaceVerify (q := 103) (2 + 3 + 1) (fun _ => some true) 1 2 [5, 6, 7] [1] 9 = .error .assertion := by
  decide +kernel

/-! ### C50: the power circuit -/

variable {F : Type} [CommRing F]

theorem bnat_pow (g : F) (β : Nat → Bool) (i : Nat) : g ^ bnat β i * (if β i then g ^ 2 ^ i else 1) = g ^ bnat β (i + 1) := by
  rw [bnat]
  by_cases h : β i
  · simp only [h, if_true, pow_add]
  · simp [h]

theorem powCircuit_run (b : Bool) (y0 g : F) (β : Nat → Bool) (bits : List (Option Nat)) (hl : bits.length = 20)
    (hy : b = false → y0 = 1)
    (hb : ∀ i < 20, ∃ B, at! bits i = .ok B ∧ (bitVal B : Option F) = opt b (bitF (β i))) :
    Run (powCircuit (opt b g) bits) (CS.init F b) ([], []) [y0 * g ^ bnat β 20]
      (fun _ s a => At s a (.wit 0) y0 ∧ At s a (.wit 1) g) := by
  unfold powCircuit
  rw [if_neg (by simp [hl, POW_INPUT_SIZE])]
  refine Run.bind0 ((Run.newWit_pos (good_init b) y0 (fun hs => by rw [hy hs])).cnt (Cnt.newWit _)) ?_
  rintro v1 s1 a1 o1 ⟨⟨h1, p1⟩, c1⟩
  have m1 : s1.setup = b := by rw [o1.mode]; rfl
  refine Run.bind0 (Run.newWit_pos o1.good g (fun hs => opt_some (by rw [← m1]; exact hs))) ?_
  rintro v2 s2 a2 o2 ⟨h2, p2⟩
  rw [c1] at p2
  have p1' : v1 = .wit 0 := p1
  have p2' : v2 = .wit 1 := p2
  have m2 : s2.setup = b := by rw [o2.mode, m1]
  have hloop := Run.synUp (n := POW_INPUT_SIZE) (f := powRound bits) (t := (⟨⟨v1, some 1⟩, ⟨v2, opt b g⟩⟩ : PowSt F)) o2.good
    (fun i => if i + 1 = 20 then [y0 * g ^ bnat β 20] else [])
    (fun i st s' a' => PowPost (y0 * g ^ bnat β i) (g ^ 2 ^ i) st s' a')
    ⟨by simpa [bnat] using o2.mono _ _ h1, fun hs => by simp [bnat, hy (by rw [← m2]; exact hs)], by
      simpa using h2, by simp [m2]⟩
    (fun i hi t s' a' o ht => by
      obtain ⟨B, hB, hb⟩ := hb i hi
      have mm : s'.setup = b := by rw [o.mode, m2]
      have := powRound_run o.good hB (β := β i) (by rw [mm]; exact hb) ht
      have e1 : y0 * g ^ bnat β i * (if β i then g ^ 2 ^ i else 1) = y0 * g ^ bnat β (i + 1) := by
        rw [mul_assoc, bnat_pow]
      have e2 : g ^ 2 ^ i * g ^ 2 ^ i = g ^ 2 ^ (i + 1) := by rw [← pow_add, Nat.pow_succ]; ring_nf
      rw [e1, e2] at this
      have e3 : (if i + 1 = POW_INPUT_SIZE then [y0 * g ^ bnat β (i + 1)] else []) =
          if i + 1 = 20 then [y0 * g ^ bnat β 20] else [] := by
        by_cases h : i + 1 = 20
        · simp [h, POW_INPUT_SIZE]
        · simp [h, POW_INPUT_SIZE]
      rw [e3] at this
      exact this)
  rw [flatMap_single, if_pos (by simp [POW_INPUT_SIZE])] at hloop
  exact Run.last hloop (fun _ => rfl) (fun _ _ _ o _ => ⟨p1' ▸ o.mono _ _ (o2.mono _ _ h1), p2' ▸ o.mono _ _ h2⟩)

theorem bnat_exists (e k : Nat) (h : e < 2 ^ k) : bnat e.testBit k = e := by
  rw [bnat_testBit, Nat.mod_eq_of_lt h]

theorem powCircuit_snd [IsDomain F] (g : Option F) (bits : List (Option Nat)) :
    Snd (powCircuit g bits) (fun _ s _ a => s.nInst = 0 → s.nWit = 0 →
      ∃ e < 2 ^ 20, valA a (.inst 0) = valA a (.wit 0) * valA a (.wit 1) ^ e) := by
  unfold powCircuit
  by_cases h : bits.length ≠ POW_INPUT_SIZE
  · rw [if_pos h]
    exact (Snd.lift _).weaken (fun r s s' a hq => by cases hq.1)
  rw [if_neg h]
  refine (Snd.bind (Snd.newWit _) (fun v1 => Snd.bind (Snd.newWit _) (fun v2 => Snd.bind
    (Snd.synUp (fun i st s a => (∃ e < 2 ^ i, valA a st.y.var = valA a (.wit 0) * valA a (.wit 1) ^ e) ∧
        valA a st.g.var = valA a (.wit 1) ^ 2 ^ i ∧ s.nInst = (if i = POW_INPUT_SIZE then 1 else 0) ∧
        (i = POW_INPUT_SIZE → st.y.var = .inst 0))
      (fun i hi t => (powRound_snd bits i t).weaken ?_)) (fun _ => Snd.pure ())))).weaken ?_
  · rintro t' s s' a ⟨h1, h2, h3, h4⟩ ⟨⟨e, he, i1⟩, i2, i3, -⟩
    rw [if_neg (by omega)] at i3
    have hp : 2 ^ (i + 1) = 2 ^ i + 2 ^ i := by rw [Nat.pow_succ]; omega
    refine ⟨?_, ?_, by rw [h4, i3, zero_add], fun hi => by rw [h3 hi, i3]⟩
    · rcases h1 with h1 | h1
      · exact ⟨e, by omega, by rw [h1, i1]⟩
      · exact ⟨e + 2 ^ i, by omega, by rw [h1, i1, i2, mul_assoc, ← pow_add]⟩
    · rw [h2, i2, ← pow_add, hp]
  · rintro _ s s' a ⟨v1, s1, ⟨e1, w1, n1⟩, v2, s2, ⟨e2, w2, n2⟩, st, s3, hl, -, -⟩ h0 h0'
    rw [h0'] at e1 w1
    rw [w1] at e2
    obtain ⟨⟨e, he, h1⟩, -, -, h3⟩ := hl ⟨⟨0, by simp, by rw [e1]; simp⟩, by rw [e2]; simp, by rw [n2, n1, h0]; rfl,
      fun h => absurd h (by decide)⟩
    exact ⟨e, he, by rw [← h3 rfl, h1]⟩

/-- Completeness: with the bits of any exponent below `2^20` (and base `g`) the recorded
assignment satisfies the circuit and the public input is the power. -/
theorem C50_complete (g : F) (x : Nat) (hx : x < 2 ^ 20) :
    ∃ s, powCircuit (some g) ((List.range 20).map (fun i => some (x / 2 ^ i % 2))) (CS.init F false) = .ok ((), s) ∧
      Satisfies s.cons (s.inst, s.wit) ∧ s.inst = [g ^ x] := by
  obtain ⟨s, e, hs, hp, -⟩ := run_prove (powCircuit_run (F := F) false 1 g x.testBit
    ((List.range 20).map (fun i => some (x / 2 ^ i % 2))) (by simp) (fun _ => rfl) (fun i hi => ⟨some (x / 2 ^ i % 2), by
      rw [at!_eq_ok, List.getElem?_map, List.getElem?_range hi]; rfl, by
      rw [Nat.testBit_eq_decide_div_mod_eq]
      have h2 : x / 2 ^ i % 2 < 2 := Nat.mod_lt _ (by norm_num)
      by_cases h : x / 2 ^ i % 2 = 1
      · simp [bitVal, opt, bitF, h]
      · have h0 : x / 2 ^ i % 2 = 0 := by omega
        simp [bitVal, opt, bitF, h0]⟩))
  refine ⟨s, e, hs, ?_⟩
  rw [hp, one_mul, bnat_exists x 20 hx]

/-- Exactly what the power circuit proves: its private variables 0 and 1 are the start value and
the base, and the public output can be satisfied iff it is the start value times the base to some
exponent below `2^20`.  The start value is not constrained to be one. -/
theorem C50_relation [IsDomain F] :
    ∃ s, powCircuit none (List.replicate 20 none) (CS.init F true) = .ok ((), s) ∧ s.nInst = 1 ∧
      ∀ start base out : F, (∃ w, (start :: base :: w).length = s.nWit ∧ Satisfies s.cons ([out], start :: base :: w)) ↔
        ∃ e < 2 ^ 20, out = start * base ^ e := by
  have hset := fun (y0 g : F) (β : Nat → Bool) => run_setup (powCircuit_run (F := F) true y0 g β (List.replicate 20 none) (by simp)
    (fun h => by cases h) (fun i hi => ⟨none, by rw [at!_eq_ok, List.getElem?_replicate, if_pos hi], rfl⟩))
  obtain ⟨s, w, he, hn, -⟩ := hset 0 0 (fun _ => false)
  refine ⟨s, he, hn, fun y0 g out => ⟨?_, ?_⟩⟩
  · rintro ⟨w, -, hs⟩
    exact (powCircuit_snd _ _ _ _ _ he _ hs).2 rfl rfl
  · rintro ⟨x, hx, rfl⟩
    obtain ⟨s', w, e', -, hw, hs, h0, h1⟩ := hset y0 g x.testBit
    obtain rfl : s = s' := by
      have := he.symm.trans e'
      injection this with this
      exact (Prod.mk.inj this).2
    obtain ⟨w', rfl⟩ := two_heads h0 h1 hw
    rw [bnat_exists x 20 hx] at hs
    exact ⟨w', hw, hs⟩

/-- So every claim "out is a power of base" is satisfiable. -/
theorem C50_every_claim [IsDomain F] (base out : F) :
    ∃ s w, powCircuit none (List.replicate 20 none) (CS.init F true) = .ok ((), s) ∧ w.length = s.nWit ∧
      w[1]? = some base ∧ Satisfies s.cons ([out], w) := by
  obtain ⟨s, e, -, h⟩ := C50_relation (F := F)
  obtain ⟨w, hw, hs⟩ := (h out base out).mpr ⟨0, by norm_num, by simp⟩
  exact ⟨s, _, e, hw, rfl, hs⟩

/-- `3 ^ 5` over a small field. -/
example : (match powCircuit (F := ZMod 103) (some 3) ((List.range 20).map (fun i => some (5 / 2 ^ i % 2)))
      (CS.init (ZMod 103) false) with
    | .ok ((), s) => decide (s.inst = [3 ^ 5])
    | .error _ => false) = true := by decide +kernel

/-! ### C60: the equality circuit -/

/-- The public inputs of the equality circuit. -/
def eqPub (d : Nat) (x1 x2 : F) : List F := if d ≤ 256 then [x1, x2] else [x2]

theorem eqPub_flatMap (d : Nat) (hd : 1 ≤ d) (x1 x2 : F) :
    (List.range 256).flatMap (fun i => (if i + 1 = d then [x1] else []) ++ (if i + 1 = 256 then [x2] else [])) = eqPub d x1 x2 := by
  rw [List.range_succ, List.flatMap_append]
  have h1 : (List.range 255).flatMap (fun i => (if i + 1 = d then [x1] else []) ++ (if i + 1 = 256 then [x2] else [])) =
      (List.range 255).flatMap (fun i => if i + 1 = d then [x1] else []) := by
    apply List.flatMap_congr
    intro i hi
    rw [List.mem_range] at hi
    rw [if_neg (c := i + 1 = 256) (by omega), List.append_nil]
  rw [h1, flatMap_single]
  simp only [List.flatMap_cons, List.flatMap_nil, List.append_nil, eqPub]
  by_cases h : d ≤ 255
  · rw [if_pos ⟨hd, h⟩, if_neg (by omega), if_pos (by norm_num), if_pos (by omega)]; rfl
  · rw [if_neg (by omega)]
    by_cases h' : d = 256
    · subst h'; rfl
    · rw [if_neg (by omega), if_pos (by norm_num), if_neg (by omega)]; rfl

theorem bnat_step (β : Nat → Bool) (i : Nat) (two x : F) :
    bitF (β i) * (two * 2 ^ i) + (x + two * (bnat β i : Nat)) = x + two * (bnat β (i + 1) : Nat) := by
  rw [bnat]
  by_cases h : β i
  · simp [h, bitF]; ring
  · simp [h, bitF]

theorem equalCircuit_run (b : Bool) (d : Nat) (hd : 1 ≤ d) (two x : F) (β : Nat → Bool) (bits : List (Option Nat))
    (hl : bits.length = 256) (hy : b = false → two = 1 ∧ x = 0) (x1 x2 : F)
    (h1 : d ≤ 256 → x1 = x + two * (bnat β d : Nat)) (h2 : x2 = x + two * (bnat β 256 : Nat))
    (hb : ∀ i < 256, ∃ B, at! bits i = .ok B ∧ (bitVal B : Option F) = opt b (bitF (β i))) :
    Run (equalCircuit (opt b x1) (opt b x2) bits d) (CS.init F b) ([], []) (eqPub d x1 x2)
      (fun _ s a => At s a (.wit 0) two ∧ At s a (.wit 1) x) := by
  unfold equalCircuit
  rw [if_neg (by simp [hl, EQUAL_INPUT_SIZE])]
  refine Run.bind0 ((Run.newWit_pos (good_init b) two (fun hs => by rw [(hy hs).1])).cnt (Cnt.newWit _)) ?_
  rintro v1 s1 a1 o1 ⟨⟨q1, p1⟩, c1⟩
  have m1 : s1.setup = b := by rw [o1.mode]; rfl
  refine Run.bind0 (Run.newWit_pos o1.good x (fun hs => by rw [(hy (by rw [← m1]; exact hs)).2])) ?_
  rintro v2 s2 a2 o2 ⟨q2, p2⟩
  rw [c1] at p2
  have p1' : v1 = .wit 0 := p1
  have p2' : v2 = .wit 1 := p2
  have m2 : s2.setup = b := by rw [o2.mode, m1]
  have hloop := Run.synUp (n := EQUAL_INPUT_SIZE) (f := equalRound (opt b x1) (opt b x2) bits d)
    (t := (⟨⟨v1, some 1⟩, ⟨v2, some 0⟩⟩ : EqSt F)) o2.good
    (fun i => (if i + 1 = d then [x1] else []) ++ (if i + 1 = 256 then [x2] else []))
    (fun i st s' a' => EqPost (two * 2 ^ i) (x + two * (bnat β i : Nat)) st s' a')
    ⟨by simpa using o2.mono _ _ q1, by simpa [bnat] using q2, fun hs => by
      obtain ⟨r1, r2⟩ := hy (by rw [← m2]; exact hs); simp [bnat, r1, r2]⟩
    (fun i hi t s' a' o ht => by
      obtain ⟨B, hB, hb⟩ := hb i hi
      have mm : s'.setup = b := by rw [o.mode, m2]
      have := equalRound_run o.good (d := d) hd hB (β := β i) (by rw [mm]; exact hb) (x1 := x1) (x2 := x2) ht
        (fun e => by rw [bnat_step, e]; exact h1 (by rw [← e]; exact hi))
        (fun e => by rw [bnat_step, e]; exact h2)
      rw [bnat_step, mm] at this
      have e2 : two * 2 ^ i * (1 + 1) = two * 2 ^ (i + 1) := by ring
      rw [e2] at this
      exact this)
  have : EQUAL_INPUT_SIZE = 256 := rfl
  rw [this, eqPub_flatMap d hd] at hloop
  exact Run.last hloop (fun _ => rfl) (fun _ _ _ o _ => ⟨p1' ▸ o.mono _ _ (o2.mono _ _ q1), p2' ▸ o.mono _ _ q2⟩)

theorem equalCircuit_snd [IsDomain F] (y1 y2 : Option F) (bits : List (Option Nat)) (d : Nat) :
    Snd (equalCircuit y1 y2 bits d) (fun _ s _ a => s.nInst = 0 → s.nWit = 0 → d ≤ 256 →
      ∃ e < 2 ^ d, ∃ f < 2 ^ (256 - d), valA a (.inst 0) = valA a (.wit 1) + valA a (.wit 0) * (e : Nat) ∧
        valA a (.inst 1) = valA a (.inst 0) + valA a (.wit 0) * 2 ^ d * (f : Nat)) := by
  unfold equalCircuit
  by_cases h : bits.length ≠ EQUAL_INPUT_SIZE
  · rw [if_pos h]
    exact (Snd.lift _).weaken (fun r s s' a hq => by cases hq.1)
  rw [if_neg h]
  refine (Snd.bind (Snd.newWit _) (fun v1 => Snd.bind (Snd.newWit _) (fun v2 => Snd.bind
    (Snd.synUp (fun (i : Nat) (st : EqSt F) (s : CS F) (a : List F × List F) => valA a st.two.var = valA a (.wit 0) * 2 ^ i ∧
        (i < d → (d ≤ 256 → s.nInst = 0) ∧ ∃ e < 2 ^ i, valA a st.x.var = valA a (.wit 1) + valA a (.wit 0) * (e : Nat)) ∧
        (d ≤ i → d ≤ 256 → 1 ≤ i → (∃ e < 2 ^ d, valA a (.inst 0) = valA a (.wit 1) + valA a (.wit 0) * (e : Nat)) ∧
          (∃ f < 2 ^ (i - d), valA a st.x.var = valA a (.inst 0) + valA a (.wit 0) * 2 ^ d * (f : Nat)) ∧
          (i < 256 → s.nInst = 1) ∧ (i = 256 → valA a (.inst 1) = valA a st.x.var)))
      (fun i hi t => (equalRound_snd y1 y2 bits d i t).weaken ?_)) (fun _ => Snd.pure ())))).weaken ?_
  · rintro t' s s' a ⟨g1, g2, g3, g4, g5, g6⟩ ⟨i1, i2, i3⟩
    have hi' : i < 256 := hi
    have hE : EQUAL_INPUT_SIZE = 256 := rfl
    rw [hE] at g5 g6
    have hstep : ∀ (e : Nat) (base : F) (j : Nat), e < 2 ^ j → valA a t.x.var = base + valA a (.wit 0) * 2 ^ (i - j) * (e : Nat) → j ≤ i →
        ∃ e' < 2 ^ (j + 1), valA a t'.x.var = base + valA a (.wit 0) * 2 ^ (i - j) * (e' : Nat) := by
      intro e base j he hx hj
      have hp : 2 ^ (j + 1) = 2 ^ j + 2 ^ j := by rw [Nat.pow_succ]; omega
      rcases g1 with g1 | g1
      · exact ⟨e, by omega, by rw [g1, hx]⟩
      · refine ⟨e + 2 ^ j, by omega, ?_⟩
        have hij : (2 : F) ^ i = 2 ^ (i - j) * 2 ^ j := by rw [← pow_add]; congr 1; omega
        rw [g1, hx, i1, hij]; push_cast; ring
    refine ⟨by rw [g2, i1]; ring, fun hid => ?_, fun hid h256 _ => ?_⟩
    · obtain ⟨n0, e, he, hx⟩ := i2 (by omega)
      refine ⟨fun h => by rw [g6, n0 h, if_neg (by omega), if_neg (by omega)], ?_⟩
      obtain ⟨e', he', hx'⟩ := hstep e (valA a (.wit 1)) i he (by rw [hx]; simp) (Nat.le_refl _)
      exact ⟨e', he', by rw [hx']; simp⟩
    · by_cases hd' : i + 1 = d
      · obtain ⟨n0, e, he, hx⟩ := i2 (by omega)
        obtain ⟨e', he', hx'⟩ := hstep e (valA a (.wit 1)) i he (by rw [hx]; simp) (Nat.le_refl _)
        have n0 := n0 h256
        have h0 := g4 hd'
        rw [n0] at h0
        have hx2 : valA a (.inst 0) = valA a (.wit 1) + valA a (.wit 0) * (e' : Nat) := by rw [h0, hx']; simp
        refine ⟨⟨e', by rw [← hd']; exact he', hx2⟩, ⟨0, by simp, by rw [h0]; simp⟩, fun hlt => ?_, fun h2 => ?_⟩
        · rw [g6, n0, if_pos hd', if_neg (by omega)]
        · have := g5 h2
          rw [n0, if_pos hd'] at this
          exact this
      · obtain ⟨he, ⟨f, hf, hx⟩, n1, -⟩ := i3 (by omega) h256 (by omega)
        have n1 := n1 hi'
        obtain ⟨f', hf', hx'⟩ := hstep f (valA a (.inst 0)) (i - d) hf (by rw [hx]; congr 3; rw [Nat.sub_sub_self (by omega)]) (by omega)
        rw [Nat.sub_sub_self (by omega)] at hx'
        refine ⟨he, ⟨f', by convert hf' using 2; omega, hx'⟩, fun hlt => ?_, fun h2 => ?_⟩
        · rw [g6, n1, if_neg hd', if_neg (by omega)]
        · have := g5 h2
          rw [n1, if_neg hd'] at this
          exact this
  · rintro _ s s' a ⟨v1, s1, ⟨e1, w1, n1⟩, v2, s2, ⟨e2, w2, n2⟩, st, s3, hl, -, -⟩ h0 h0' h256
    rw [h0'] at e1 w1
    rw [w1] at e2
    obtain ⟨-, -, h3⟩ := hl ⟨by rw [e1]; simp, fun _ => ⟨fun _ => by rw [n2, n1, h0], 0, by simp, by rw [e2]; simp⟩,
      fun _ _ h => absurd h (by decide)⟩
    obtain ⟨⟨e, he, x1⟩, ⟨f, hf, x2⟩, -, h4⟩ := h3 h256 h256 (by decide)
    exact ⟨e, he, f, hf, x1, by rw [h4 rfl, x2]⟩

theorem testBit_bitVal (x i : Nat) : (bitVal (some (x / 2 ^ i % 2)) : Option F) = opt false (bitF (x.testBit i)) := by
  rw [Nat.testBit_eq_decide_div_mod_eq]
  have h2 : x / 2 ^ i % 2 < 2 := Nat.mod_lt _ (by norm_num)
  by_cases h : x / 2 ^ i % 2 = 1
  · simp [bitVal, opt, bitF, h]
  · have h0 : x / 2 ^ i % 2 = 0 := by omega
    simp [bitVal, opt, bitF, h0]

/-- Completeness: for a number below `2^256` with its bits, and the number's `d` low bits, the
recorded assignment satisfies the circuit and the public inputs are the two values. -/
theorem C60_complete (x d : Nat) (hx : x < 2 ^ 256) (h1 : 1 ≤ d) (hd : d ≤ 256) :
    ∃ s, equalCircuit (some ((x % 2 ^ d : Nat) : F)) (some (x : F)) ((List.range 256).map (fun i => some (x / 2 ^ i % 2))) d
        (CS.init F false) = .ok ((), s) ∧
      Satisfies s.cons (s.inst, s.wit) ∧ s.inst = [((x % 2 ^ d : Nat) : F), (x : F)] := by
  obtain ⟨s, e, hs, hp, -⟩ := run_prove (equalCircuit_run (F := F) false d h1 1 0 x.testBit
    ((List.range 256).map (fun i => some (x / 2 ^ i % 2))) (by simp) (fun _ => ⟨rfl, rfl⟩) ((x % 2 ^ d : Nat) : F) (x : F)
    (fun _ => by rw [bnat_testBit, zero_add, one_mul]) (by rw [bnat_exists x 256 hx, zero_add, one_mul])
    (fun i hi => ⟨some (x / 2 ^ i % 2), by
      rw [at!_eq_ok, List.getElem?_map, List.getElem?_range hi]; rfl, testBit_bitVal x i⟩))
  exact ⟨s, e, hs, by rw [hp, eqPub, if_pos hd]⟩

/-- Any exponent pair is the low and high part of one bit sequence. -/
theorem bnat_split {d : Nat} (hd : d ≤ 256) {e f : Nat} (he : e < 2 ^ d) (hf : f < 2 ^ (256 - d)) :
    bnat (e + 2 ^ d * f).testBit d = e ∧ bnat (e + 2 ^ d * f).testBit 256 = e + 2 ^ d * f := by
  have hp : 2 ^ 256 = 2 ^ d * 2 ^ (256 - d) := by rw [← pow_add]; congr 1; omega
  refine ⟨by rw [bnat_testBit, Nat.add_mul_mod_self_left, Nat.mod_eq_of_lt he], bnat_exists _ _ ?_⟩
  rw [hp]
  calc e + 2 ^ d * f < 2 ^ d + 2 ^ d * f := by omega
    _ = 2 ^ d * (f + 1) := by ring
    _ ≤ _ := Nat.mul_le_mul_left _ hf

/-- Exactly what the equality circuit proves for a difficulty between 1 and 256: private variables
0 and 1 are the unit and the start of the sum, neither of which is constrained. -/
theorem C60_relation [IsDomain F] (d : Nat) (h1 : 1 ≤ d) (hd : d ≤ 256) :
    ∃ s, equalCircuit none none (List.replicate 256 none) d (CS.init F true) = .ok ((), s) ∧ s.nInst = 2 ∧
      ∀ unit start x1 x2 : F,
        (∃ w, (unit :: start :: w).length = s.nWit ∧ Satisfies s.cons ([x1, x2], unit :: start :: w)) ↔
        ∃ e < 2 ^ d, ∃ f < 2 ^ (256 - d), x1 = start + unit * (e : Nat) ∧ x2 = x1 + unit * 2 ^ d * (f : Nat) := by
  have hset := fun (two x : F) (β : Nat → Bool) => run_setup (equalCircuit_run (F := F) true d h1 two x β (List.replicate 256 none)
    List.length_replicate (fun h => by cases h) (x + two * (bnat β d : Nat)) (x + two * (bnat β 256 : Nat)) (fun _ => rfl) rfl
    (fun i hi => ⟨none, by rw [at!_eq_ok, List.getElem?_replicate, if_pos hi], rfl⟩))
  obtain ⟨s, w, he, hn, -⟩ := hset 0 0 (fun _ => false)
  refine ⟨s, he, by rw [hn, eqPub, if_pos hd, List.length_cons, List.length_singleton], fun u y x1 x2 => ⟨?_, ?_⟩⟩
  · rintro ⟨w, -, hs⟩
    exact (equalCircuit_snd _ _ _ _ _ _ _ he _ hs).2 rfl rfl hd
  · rintro ⟨e, hee, f, hf, rfl, rfl⟩
    obtain ⟨s', w, e', -, hw, hs, h0, h1⟩ := hset u y (e + 2 ^ d * f).testBit
    obtain rfl : s = s' := (Prod.mk.inj (Except.ok.inj (he.symm.trans e'))).2
    obtain ⟨w', rfl⟩ := two_heads h0 h1 hw
    obtain ⟨b1, b2⟩ := bnat_split hd hee hf
    rw [b1, b2, eqPub, if_pos hd] at hs
    refine ⟨w', hw, ?_⟩
    have : y + u * ((e + 2 ^ d * f : Nat) : F) = y + u * (e : Nat) + u * 2 ^ d * (f : Nat) := by push_cast; ring
    rw [this] at hs
    exact hs

/-- So below difficulty 256 any two values pass as "x1 is the low bits of x2" … -/
theorem C60_every_claim {K : Type} [Field K] (h2 : (2 : K) ≠ 0) (d : Nat) (h1 : 1 ≤ d) (hd : d < 256) (x1 x2 : K) :
    ∃ s w, equalCircuit none none (List.replicate 256 none) d (CS.init K true) = .ok ((), s) ∧ w.length = s.nWit ∧
      Satisfies s.cons ([x1, x2], w) := by
  obtain ⟨s, e, -, h⟩ := C60_relation (F := K) d h1 (by omega)
  obtain ⟨w, hw, hs⟩ := (h ((x2 - x1) / 2 ^ d) x1 x1 x2).mpr ⟨0, by positivity, 1, Nat.one_lt_two_pow (by omega), by simp, by
    have : (2 : K) ^ d ≠ 0 := pow_ne_zero _ h2
    field_simp; ring⟩
  exact ⟨s, _, e, hw, hs⟩

/-- … and at difficulty 256 the circuit says exactly that the two public values are equal. -/
theorem C60_full_width {F : Type} [CommRing F] [IsDomain F] :
    ∃ s, equalCircuit none none (List.replicate 256 none) 256 (CS.init F true) = .ok ((), s) ∧
      ∀ x1 x2 : F, (∃ w, w.length = s.nWit ∧ Satisfies s.cons ([x1, x2], w)) ↔ x1 = x2 := by
  obtain ⟨s, e, hn, h⟩ := C60_relation (F := F) 256 (by norm_num) (Nat.le_refl _)
  refine ⟨s, e, fun x1 x2 => ⟨?_, ?_⟩⟩
  · rintro ⟨w, -, hs⟩
    obtain ⟨ee, -, f, hf, h1, h2⟩ := (equalCircuit_snd _ _ _ _ _ _ _ e _ hs).2 rfl rfl (Nat.le_refl _)
    obtain rfl : f = 0 := by simpa using hf
    simpa [valA] using h2.symm
  · rintro rfl
    obtain ⟨w, hw, hs⟩ := (h 0 x1 x1 x1).mpr ⟨0, by positivity, 0, by simp, by simp, by simp⟩
    exact ⟨_, hw, hs⟩

/-- A difficulty above 256 never exposes `x1`: the circuit then has one public input, which any
value satisfies. -/
theorem C60_over_difficulty (d : Nat) (hd : 256 < d) :
    ∃ s, equalCircuit none none (List.replicate 256 none) d (CS.init F true) = .ok ((), s) ∧ s.nInst = 1 ∧
      ∀ x2 : F, ∃ w, w.length = s.nWit ∧ Satisfies s.cons ([x2], w) := by
  have hset := fun (x : F) => run_setup (equalCircuit_run (F := F) true d (by omega) 0 x (fun _ => false) (List.replicate 256 none)
    List.length_replicate (fun h => by cases h) x x (fun h => absurd h (by omega)) (by rw [zero_mul, add_zero])
    (fun i hi => ⟨none, by rw [at!_eq_ok, List.getElem?_replicate, if_pos hi], rfl⟩))
  obtain ⟨s, w, he, hn, -⟩ := hset 0
  refine ⟨s, he, by rw [hn, eqPub, if_neg (by omega), List.length_singleton], fun x2 => ?_⟩
  obtain ⟨s', w, e', -, hw, hs, -⟩ := hset x2
  obtain rfl : s = s' := (Prod.mk.inj (Except.ok.inj (he.symm.trans e'))).2
  rw [eqPub, if_neg (by omega)] at hs
  exact ⟨w, hw, hs⟩

/-- Difficulty zero panics (`difficulty - 1` underflows), in key generation and in proving. -/
theorem C60_zero_difficulty (x1 x2 : Option F) (bits : List (Option Nat)) (b : Bool) (s : CS F) :
    equalCircuit x1 x2 bits 0 (CS.init F b) ≠ .ok ((), s) := by
  intro h
  have hl : bits.length = EQUAL_INPUT_SIZE := by
    by_contra hne
    unfold equalCircuit at h
    rw [if_pos hne] at h
    cases h
  unfold equalCircuit at h
  rw [if_neg (by simp [hl])] at h
  obtain ⟨_, _, -, h⟩ := run_bind_inv h
  obtain ⟨_, _, -, h⟩ := run_bind_inv h
  obtain ⟨_, _, h, -⟩ := run_bind_inv h
  have e : EQUAL_INPUT_SIZE = 255 + 1 := rfl
  rw [e, synUp] at h
  obtain ⟨_, _, -, h⟩ := run_bind_inv h
  unfold equalRound at h
  iterate 9 obtain ⟨_, _, -, h⟩ := run_bind_inv h
  obtain ⟨_, _, h, -⟩ := run_bind_inv h
  have := (lift_inv h).1
  rw [sub!, if_neg (by decide)] at this
  cases this

theorem run_bind_error {α β : Type} {x : Syn F α} {f : α → Syn F β} {s : CS F} {e : Panic} (h : x s = .error e) :
    (x >>= f) s = .error e := by
  show (x s >>= _) = _
  rw [h]
  rfl

/-- A loop whose first step panics panics. -/
theorem synUp_error {σ : Type} {f : Nat → σ → Syn F σ} {t : σ} {s : CS F} {e : Panic} (h : f 0 t s = .error e) (n : Nat) :
    synUp (n + 1) f t s = .error e := by
  induction n with
  | zero => exact h
  | succ n ih =>
    show ((synUp (n + 1) f t s) >>= fun r => f (n + 1) r.1 r.2) = _
    rw [ih]
    rfl

/-- The panic is the underflow, in the first round: in key generation whatever the bits are, and in proving when the first
bit is given. -/
theorem C60_zero_difficulty_panic (x1 x2 : Option F) (bits : List (Option Nat)) (hl : bits.length = 256) (b : Bool)
    (hb : b = true ∨ bits[0]? = some (some 0) ∨ bits[0]? = some (some 1)) :
    equalCircuit x1 x2 bits 0 (CS.init F b) = .error .overflow := by
  obtain ⟨b0, rest, rfl⟩ : ∃ b0 rest, bits = b0 :: rest := by
    cases bits with
    | nil => cases hl
    | cons b0 rest => exact ⟨b0, rest, rfl⟩
  have hround : ∀ st s, equalRound x1 x2 (b0 :: rest) 0 0 st s = .error .overflow ∨ st.two.val = none ∨ st.x.val = none ∨
      (s.setup = false ∧ b = true) ∨ (s.setup = true ∧ b = false) := by
    rintro ⟨⟨tv, _ | t⟩, ⟨xv, _ | x⟩⟩ ⟨setup, i, w, ni, nw, c⟩
    · exact Or.inr (Or.inl rfl)
    · exact Or.inr (Or.inl rfl)
    · exact Or.inr (Or.inr (Or.inl rfl))
    · cases setup <;> cases b
      · left
        rcases hb with hb | hb | hb
        · cases hb
        · cases hb; rfl
        · cases hb; rfl
      · exact Or.inr (Or.inr (Or.inr (Or.inl ⟨rfl, rfl⟩)))
      · exact Or.inr (Or.inr (Or.inr (Or.inr ⟨rfl, rfl⟩)))
      · left
        rcases b0 with _ | _ | _ | k <;> rfl
  have key : ∀ two x s, s.setup = b →
      synUp EQUAL_INPUT_SIZE (equalRound x1 x2 (b0 :: rest) 0) ⟨⟨two, some 1⟩, ⟨x, some 0⟩⟩ s = .error .overflow := by
    intro two x s hs
    refine synUp_error ?_ 255
    rcases hround ⟨⟨two, some 1⟩, ⟨x, some 0⟩⟩ s with h | h | h | h | h
    · exact h
    · cases h
    · cases h
    · rw [hs] at h; cases h.1.symm.trans h.2
    · rw [hs] at h; cases h.1.symm.trans h.2
  unfold equalCircuit
  rw [if_neg (by rw [hl]; simp [EQUAL_INPUT_SIZE])]
  have hwit : ∀ (v : F) (s : CS F), ∃ r s', newWit (some v) s = .ok (r, s') ∧ s'.setup = s.setup := by
    rintro v ⟨setup, i, w, ni, nw, c⟩
    cases setup <;> exact ⟨_, _, rfl, rfl⟩
  obtain ⟨r1, s1, h1, e1⟩ := hwit 1 (CS.init F b)
  obtain ⟨r2, s2, h2, e2⟩ := hwit 0 s1
  rw [run_bind h1, run_bind h2]
  exact run_bind_error (key r1 r2 s2 (e2.trans e1))

example : equalCircuit (F := ZMod 103) (some 8) (some 1000) ((List.range 256).map (fun i => some (1000 / 2 ^ i % 2))) 0
    (CS.init (ZMod 103) false) = .error .overflow :=
  C60_zero_difficulty_panic _ _ _ (by simp) _ (Or.inr (Or.inl (by decide +kernel)))

/-- 1000 and its four low bits over a small field. -/
example : (match equalCircuit (F := ZMod 103) (some 8) (some 1000) ((List.range 256).map (fun i => some (1000 / 2 ^ i % 2))) 4
      (CS.init (ZMod 103) false) with
    | .ok ((), s) => decide (s.inst = [8, 1000])
    | .error _ => false) = true := by decide +kernel

/-! ### C56: the sloth circuit -/

/-- `fmod` is not a remainder: it is zero for every dividend … -/
theorem C56_fmod {K : Type} [Field K] [DecidableEq K] (x m : K) :
    fmod x m = if m = 0 then .error .unwrap else .ok 0 := by
  unfold fmod
  split
  · rfl
  · rename_i h
    rw [inv_mul_cancel_right₀ h, sub_self]

/-- … and the circuit adds no constraint, so it is satisfied by every assignment: it proves
nothing about its input. -/
theorem C56_no_constraints {K : Type} [Field K] [DecidableEq K] (h2 : (2 : K) ≠ 0) (b : Bool) (y p : K) (hp : p ≠ 0) :
    ∃ s, slothCircuit (opt b y) (opt b p) (CS.init K b) = .ok ((), s) ∧ s.nInst = 1 ∧ s.nWit = 3 ∧ s.cons = [] ∧
      ∀ a, Satisfies s.cons a := by
  have h11 : (1 : K) + 1 ≠ 0 := by rw [one_add_one_eq_two]; exact h2
  cases b
  · refine ⟨⟨false, [y], [0, 0, 0], 1, 3, []⟩, ?_, rfl, rfl, rfl, fun a c h => absurd h (by simp)⟩
    unfold slothCircuit
    have hx : (if (opt false y : Option K) = none then .ok none
        else do
          let r ← unwrap! (opt false y)
          let b ← fmod r (1 + 1)
          let p ← unwrap! (opt false p)
          if b = 1 then do
            let v ← fmod (r + 1) p
            pure (some v)
          else do
            let v ← fmod (r - 1) p
            pure (some v) : R (Option K)) = .ok (some 0) := by
      simp only [C56_fmod, h11, hp, if_false, opt, unwrap!]
      simp [bind, Except.bind, pure, Except.pure, hp]
    simp only [hx]
    rfl
  · refine ⟨⟨true, [], [], 1, 3, []⟩, ?_, rfl, rfl, rfl, fun a c h => absurd h (by simp)⟩
    rfl

end PoS
