import Verif.Proofs.Circuits

/-
What the recorded assignment of a prover fulfils, also when it does not satisfy the constraints:
`Rec` - the step succeeds in proving mode, and the recorded assignment satisfies the constraints
        after it exactly if it satisfied those before it and the stated condition holds.
-/

namespace PoS

set_option linter.unusedSectionVars false

variable {F : Type} [CommRing F] {α β σ : Type}

/-- The assignment recorded by a prover. -/
def recd (s : CS F) : List F × List F := (s.inst, s.wit)

/-- Proving mode, all variables recorded, all constraints over existing variables. -/
structure Rok (s : CS F) : Prop where
  mode : s.setup = false
  li : s.inst.length = s.nInst
  lw : s.wit.length = s.nWit
  closed : ∀ c ∈ s.cons, (∀ t ∈ c.1, InR s t.2) ∧ (∀ t ∈ c.2.1, InR s t.2) ∧ ∀ t ∈ c.2.2, InR s t.2

/-- `s'` extends `s`, with the condition `C` on the new constraints. -/
structure OutR (s s' : CS F) (C : Prop) : Prop where
  ok : Rok s'
  mono : ∀ v x, At s (recd s) v x → At s' (recd s') v x
  sat : Satisfies s'.cons (recd s') ↔ Satisfies s.cons (recd s) ∧ C

theorem OutR.refl {s : CS F} (g : Rok s) : OutR s s True := ⟨g, fun _ _ h => h, by simp⟩

theorem OutR.trans {s s1 s2 : CS F} {C D : Prop} (h : OutR s s1 C) (h' : OutR s1 s2 D) : OutR s s2 (C ∧ D) :=
  ⟨h'.ok, fun v x hx => h'.mono v x (h.mono v x hx), by rw [h'.sat, h.sat, and_assoc]⟩

theorem OutR.congr {s s1 : CS F} {C D : Prop} (h : OutR s s1 C) (e : C ↔ D) : OutR s s1 D :=
  ⟨h.ok, h.mono, by rw [h.sat, e]⟩

/-- The step succeeds in proving mode, adds constraints that hold exactly if `C`, and
establishes `Q`. -/
def Rec (P : Syn F α) (s : CS F) (C : Prop) (Q : α → CS F → Prop) : Prop :=
  ∃ r s', P s = .ok (r, s') ∧ OutR s s' C ∧ Q r s'

theorem Rec.bind {P : Syn F α} {f : α → Syn F β} {s : CS F} {C D : Prop} {Q : α → CS F → Prop} {Q' : β → CS F → Prop}
    (h : Rec P s C Q) (hf : ∀ r s', OutR s s' C → Q r s' → Rec (f r) s' D Q') : Rec (P >>= f) s (C ∧ D) Q' := by
  obtain ⟨r, s1, e, o, hq⟩ := h
  obtain ⟨r2, s2, e2, o2, hq2⟩ := hf r s1 o hq
  exact ⟨r2, s2, by rw [run_bind e, e2], o.trans o2, hq2⟩

theorem Rec.congr {P : Syn F α} {s : CS F} {C D : Prop} {Q : α → CS F → Prop} (h : Rec P s C Q) (e : C ↔ D) :
    Rec P s D Q := by
  obtain ⟨r, s1, e1, o, hq⟩ := h
  exact ⟨r, s1, e1, o.congr e, hq⟩

theorem Rec.weaken {P : Syn F α} {s : CS F} {C : Prop} {Q Q' : α → CS F → Prop} (h : Rec P s C Q)
    (hq : ∀ r s', OutR s s' C → Q r s' → Q' r s') : Rec P s C Q' := by
  obtain ⟨r, s1, e1, o, h1⟩ := h
  exact ⟨r, s1, e1, o, hq _ _ o h1⟩

/-- `Rec.bind` when the first step adds no condition. -/
theorem Rec.bind0 {P : Syn F α} {f : α → Syn F β} {s : CS F} {D : Prop} {Q : α → CS F → Prop} {Q' : β → CS F → Prop}
    (h : Rec P s True Q) (hf : ∀ r s', OutR s s' True → Q r s' → Rec (f r) s' D Q') : Rec (P >>= f) s D Q' :=
  (Rec.bind h hf).congr (by simp)

theorem Rec.pure {s : CS F} (g : Rok s) (r : α) {Q : α → CS F → Prop} (hq : Q r s) :
    Rec (Pure.pure r : Syn F α) s True Q := ⟨r, s, rfl, OutR.refl g, hq⟩

theorem Rec.lift_bind {s : CS F} {x : R α} {r : α} (h : x = .ok r) {f : α → Syn F β} {C : Prop}
    {Q : β → CS F → Prop} (hf : Rec (f r) s C Q) : Rec (PoS.lift x >>= f) s C Q := by
  obtain ⟨r2, s2, e2, o2, hq2⟩ := hf
  exact ⟨r2, s2, by rw [run_bind (lift_ok h s), e2], o2, hq2⟩

theorem Rok.good {s : CS F} (g : Rok s) : Good { s with cons := [] } (recd s) :=
  ⟨g.li, g.lw, (by intro c hc; cases hc), (by intro c hc; cases hc), fun _ => rfl⟩

theorem inR_cons (s : CS F) (c : List (LC F × LC F × LC F)) (v : Var) : InR { s with cons := c } v ↔ InR s v := by
  cases v <;> exact Iff.rfl

theorem at_cons (s : CS F) (c : List (LC F × LC F × LC F)) (a : List F × List F) (v : Var) (x : F) :
    At { s with cons := c } a v x ↔ At s a v x := by
  unfold At; rw [inR_cons]

theorem OutR.prefix {s s' : CS F} {C : Prop} (g : Rok s) (o : OutR s s' C) (lc : LC F) (h : ∀ t ∈ lc, InR s t.2) :
    (∀ t ∈ lc, InR s' t.2) ∧ evalLC (recd s') lc = evalLC (recd s) lc :=
  ⟨fun t ht => (o.mono t.2 _ ⟨h t ht, rfl⟩).1, evalLC_congr (fun t ht => (o.mono t.2 _ ⟨h t ht, rfl⟩).2)⟩

/-- The constraints present before a step do not influence it. -/
def Frame (P : Syn F α) : Prop :=
  ∀ (s : CS F) pre r s', P s = .ok (r, s') →
    P { s with cons := pre ++ s.cons } = .ok (r, { s' with cons := pre ++ s'.cons })

theorem Frame.bind {P : Syn F α} {f : α → Syn F β} (h : Frame P) (hf : ∀ r, Frame (f r)) : Frame (P >>= f) := by
  intro s pre r s' e
  obtain ⟨r1, s1, e1, e2⟩ := run_bind_inv e
  rw [run_bind (h s pre _ _ e1)]
  exact hf r1 s1 pre _ _ e2

theorem Frame.pure (r : α) : Frame (Pure.pure r : Syn F α) := by
  intro s pre r' s' e; cases e; rfl

theorem Frame.lift (x : R α) : Frame (PoS.lift x : Syn F α) := by
  intro s pre r' s' e
  obtain ⟨h, rfl⟩ := lift_inv e
  exact lift_ok h _

theorem Frame.newWit (o : Option F) : Frame (PoS.newWit o) := by
  intro s pre r' s' e
  unfold PoS.newWit at e ⊢
  simp only [] at e ⊢
  by_cases hs : s.setup = true
  · rw [if_pos hs] at e ⊢; cases e; rfl
  · rw [if_neg hs] at e ⊢
    obtain ⟨v, h1, h2⟩ := bind_eq_ok.mp e
    cases h2
    rw [h1]; rfl

theorem Frame.newInput (o : Option F) : Frame (PoS.newInput o) := by
  intro s pre r' s' e
  unfold PoS.newInput at e ⊢
  simp only [] at e ⊢
  by_cases hs : s.setup = true
  · rw [if_pos hs] at e ⊢; cases e; rfl
  · rw [if_neg hs] at e ⊢
    obtain ⟨v, h1, h2⟩ := bind_eq_ok.mp e
    cases h2
    rw [h1]; rfl

theorem Frame.enforce (x y z : LC F) : Frame (PoS.enforce x y z) := by
  intro s pre r' s' e; cases e
  show Except.ok _ = Except.ok _
  simp only [List.append_assoc]

theorem Frame.ite {c : Prop} [Decidable c] {P P' : Syn F α} (h : Frame P) (h' : Frame P') :
    Frame (if c then P else P') := by
  by_cases hc : c
  · rw [if_pos hc]; exact h
  · rw [if_neg hc]; exact h'

theorem Frame.synUp {n : Nat} {f : Nat → σ → Syn F σ} {t : σ} (h : ∀ i t, Frame (f i t)) :
    Frame (PoS.synUp n f t) := by
  induction n with
  | zero => exact Frame.pure t
  | succ n ih => exact Frame.bind ih (fun t => h n t)

/-- A step whose own constraints are satisfied adds no condition. -/
theorem Rec.of_run {P : Syn F α} {s : CS F} (g : Rok s) (hF : Frame P) {pub : List F}
    {Q : α → CS F → List F × List F → Prop} (h : Run P { s with cons := [] } (recd s) pub Q) {Q' : α → CS F → Prop}
    (hq : ∀ r s' c, Q r s' (recd s') → s'.setup = false → Q' r { s' with cons := c }) : Rec P s True Q' := by
  obtain ⟨r, s', a', e, o, h1⟩ := h
  have hm : s'.setup = false := by rw [o.mode]; exact g.mode
  obtain rfl : a' = recd s' := o.good.recd hm
  have e' := hF _ s.cons _ _ e
  simp only [List.append_nil] at e'
  have hmono : ∀ v x, At s (recd s) v x → At s' (recd s') v x := fun v x hv => o.mono v x ((at_cons _ _ _ _ _).mpr hv)
  have hval : ∀ lc : LC F, (∀ t ∈ lc, InR s t.2) → (∀ t ∈ lc, InR s' t.2) ∧ evalLC (recd s') lc = evalLC (recd s) lc :=
    fun lc h => ⟨fun t ht => (hmono t.2 _ ⟨h t ht, rfl⟩).1, evalLC_congr (fun t ht => (hmono t.2 _ ⟨h t ht, rfl⟩).2)⟩
  refine ⟨r, { s' with cons := s.cons ++ s'.cons }, e', ⟨⟨hm, o.good.li, o.good.lw, ?_⟩, ?_, ?_⟩, hq _ _ _ h1 hm⟩
  · intro c hc
    simp only [inR_cons]
    rcases List.mem_append.mp hc with hc | hc
    · obtain ⟨h1, h2, h3⟩ := g.closed c hc
      exact ⟨(hval _ h1).1, (hval _ h2).1, (hval _ h3).1⟩
    · exact o.good.closed c hc
  · intro v x hv
    exact (at_cons _ _ _ _ _).mpr (hmono v x hv)
  · rw [and_true]
    constructor
    · intro hs c hc
      obtain ⟨h1, h2, h3⟩ := g.closed c hc
      have := hs c (List.mem_append_left _ hc)
      change evalLC (recd s') _ * evalLC (recd s') _ = evalLC (recd s') _ at this
      rwa [(hval _ h1).2, (hval _ h2).2, (hval _ h3).2] at this
    · intro hs c hc
      change evalLC (recd s') _ * evalLC (recd s') _ = evalLC (recd s') _
      rcases List.mem_append.mp hc with hc | hc
      · obtain ⟨h1, h2, h3⟩ := g.closed c hc
        rw [(hval _ h1).2, (hval _ h2).2, (hval _ h3).2]
        exact hs c hc
      · exact o.good.sat c hc

theorem Rec.newWit {s : CS F} (g : Rok s) (x : F) :
    Rec (PoS.newWit (some x)) s True (fun v s' => At s' (recd s') v x) :=
  Rec.of_run g (Frame.newWit _) (Run.newWit g.good x (fun _ => rfl)) (fun _ _ _ h _ => (at_cons _ _ _ _ _).mpr h)

theorem Rec.newInput {s : CS F} (g : Rok s) (x : F) :
    Rec (PoS.newInput (some x)) s True (fun v s' => At s' (recd s') v x) :=
  Rec.of_run g (Frame.newInput _) (Run.newInput g.good x (fun _ => rfl)) (fun _ _ _ h _ => (at_cons _ _ _ _ _).mpr h.2)

/-- A constraint holds exactly if the values fit. -/
theorem Rec.enforce {s : CS F} (g : Rok s) {p q r : LC F} {x y z : F} (h1 : LCAt s (recd s) p x)
    (h2 : LCAt s (recd s) q y) (h3 : LCAt s (recd s) r z) :
    Rec (PoS.enforce p q r) s (x * y = z) (fun _ _ => True) := by
  refine ⟨(), { s with cons := s.cons ++ [(p, q, r)] }, rfl, ⟨⟨g.mode, g.li, g.lw, ?_⟩, ?_, ?_⟩, trivial⟩
  · intro c hc
    simp only [inR_cons]
    rcases List.mem_append.mp hc with hc | hc
    · exact g.closed c hc
    · rw [List.mem_singleton.mp hc]
      exact ⟨h1.spec.1, h2.spec.1, h3.spec.1⟩
  · intro v x hv
    exact (at_cons _ _ _ _ _).mpr hv
  · have key : evalLC (recd s) p * evalLC (recd s) q = evalLC (recd s) r ↔ x * y = z := by
      rw [h1.spec.2, h2.spec.2, h3.spec.2]
    rw [← key]
    constructor
    · intro hs
      exact ⟨fun c hc => hs c (List.mem_append_left _ hc), hs (p, q, r) (by simp)⟩
    · rintro ⟨hs, he⟩ c hc
      rcases List.mem_append.mp hc with hc | hc
      · exact hs c hc
      · rw [List.mem_singleton.mp hc]; exact he

theorem Rec.synUp {n : Nat} {f : Nat → σ → Syn F σ} {t : σ} {s : CS F} (g : Rok s) (C : Nat → Prop)
    (I : Nat → σ → CS F → Prop) (h0 : I 0 t s)
    (h : ∀ i < n, ∀ t s', OutR s s' (∀ j < i, C j) → I i t s' → Rec (f i t) s' (C i) (I (i + 1))) :
    Rec (synUp n f t) s (∀ j < n, C j) (I n) := by
  induction n with
  | zero => exact (Rec.pure g t h0).congr (by simp)
  | succ n ih =>
    refine (Rec.bind (ih (fun i hi => h i (by omega))) (fun t s' o hi => h n (by omega) t s' o hi)).congr ?_
    constructor
    · rintro ⟨h1, h2⟩ j hj
      rcases Nat.lt_succ_iff_lt_or_eq.mp hj with h | rfl
      · exact h1 j h
      · exact h2
    · exact fun h => ⟨fun j hj => h j (by omega), h n (by omega)⟩

/-! ### Independence of earlier constraints -/

theorem bitStep_frame (b : Option Bool) (st : EqSt F) : Frame (bitStep b st) := by
  unfold bitStep
  exact Frame.bind (Frame.newWit _) fun _ => Frame.bind (Frame.enforce _ _ _) fun _ => Frame.bind (Frame.lift _) fun _ =>
    Frame.bind (Frame.newWit _) fun _ => Frame.bind (Frame.enforce _ _ _) fun _ => Frame.bind (Frame.newWit _) fun _ =>
    Frame.bind (Frame.enforce _ _ _) fun _ => Frame.pure _

theorem spaceDfRound_frame (cs : List F) (j : Nat) (st : DfSt F) : Frame (spaceDfRound cs j st) := by
  unfold spaceDfRound
  exact Frame.bind (Frame.lift _) fun _ => Frame.bind (Frame.newWit _) fun _ => Frame.bind (Frame.enforce _ _ _) fun _ =>
    Frame.bind (Frame.newWit _) fun _ => Frame.bind (Frame.enforce _ _ _) fun _ => Frame.bind (Frame.lift _) fun _ =>
    Frame.bind (Frame.newWit _) fun _ => Frame.bind (Frame.enforce _ _ _) fun _ => Frame.pure _

theorem hashT_frame (cs : List F) (x k : VarVal F) (j : Nat) (h : VarVal F) : Frame (hashT cs x k j h) := by
  unfold hashT
  exact Frame.ite
    (Frame.bind (Frame.lift _) fun _ => Frame.bind (Frame.newWit _) fun _ => Frame.bind (Frame.enforce _ _ _) fun _ =>
      Frame.pure _)
    (Frame.bind (Frame.lift _) fun _ => Frame.bind (Frame.lift _) fun _ => Frame.bind (Frame.newWit _) fun _ =>
      Frame.bind (Frame.enforce _ _ _) fun _ => Frame.pure _)

theorem mimc5HashRound_frame (cs : List F) (x k : VarVal F) (j : Nat) (h : VarVal F) :
    Frame (mimc5HashRound cs x k j h) := by
  unfold mimc5HashRound
  exact Frame.bind (hashT_frame _ _ _ _ _) fun _ => Frame.bind (Frame.newWit _) fun _ =>
    Frame.bind (Frame.enforce _ _ _) fun _ => Frame.bind (Frame.newWit _) fun _ => Frame.bind (Frame.enforce _ _ _) fun _ =>
    Frame.bind (Frame.lift _) fun _ => Frame.bind (Frame.newWit _) fun _ => Frame.bind (Frame.enforce _ _ _) fun _ =>
    Frame.pure _

theorem hashInput_frame (rounds : Nat) {round : VarVal F → VarVal F → Nat → VarVal F → Syn F (VarVal F)}
    (hr : ∀ x k j h, Frame (round x k j h)) (xs : List (Option F)) (i : Nat) (res : VarVal F) :
    Frame (hashInput rounds round xs i res) := by
  unfold hashInput
  exact Frame.bind (Frame.lift _) fun _ => Frame.bind (Frame.newWit _) fun _ => Frame.bind (Frame.newWit _) fun _ =>
    Frame.bind (Frame.newWit _) fun _ => Frame.bind (Frame.synUp fun _ _ => hr _ _ _ _) fun _ =>
    Frame.bind (Frame.lift _) fun _ => Frame.bind (Frame.newWit _) fun _ => Frame.bind (Frame.enforce _ _ _) fun _ =>
    Frame.bind (Frame.lift _) fun _ => Frame.bind (Frame.ite (Frame.newInput _) (Frame.newWit _)) fun _ =>
    Frame.bind (Frame.enforce _ _ _) fun _ => Frame.pure _

/-! ### The space circuit -/

/-- Loop state of the bit loops when proving. -/
def EqRec (t y : F) (st : EqSt F) (s : CS F) : Prop :=
  At s (recd s) st.two.var t ∧ At s (recd s) st.x.var y ∧ st.two.val = some t ∧ st.x.val = some y

theorem EqRec.mono {t y : F} {st : EqSt F} {s s' : CS F} {C : Prop} (h : EqRec t y st s) (o : OutR s s' C) :
    EqRec t y st s' := ⟨o.mono _ _ h.1, o.mono _ _ h.2.1, h.2.2⟩

theorem bitStep_rec {s : CS F} (g : Rok s) {b : Option Bool} {β : Bool}
    (hb : (boolVal b : Option F) = some (bitF β)) {st : EqSt F} {t y : F} (h : EqRec t y st s) :
    Rec (bitStep b st) s True (fun st' s' => EqRec (t * (1 + 1)) (bitF β * t + y) st' s') := by
  refine Rec.of_run g (bitStep_frame b st) (bitStep_run g.good (β := β) (st := st) (t := t) (y := y) ?_ ?_) ?_
  · rw [hb, opt_some g.mode]
  · exact ⟨(at_cons _ _ _ _ _).mpr h.1, (at_cons _ _ _ _ _).mpr h.2.1, fun _ => h.2.2⟩
  · intro r s' c hp hm
    exact ⟨(at_cons _ _ _ _ _).mpr hp.1, (at_cons _ _ _ _ _).mpr hp.2.1, hp.2.2 hm⟩

theorem ynBlock_rec {q : Nat} {s : CS (ZMod q)} (g : Rok s) {n : Nat} (h1 : 1 ≤ n) (h256 : n ≤ 256) {yn Y : ZMod q} {y : Var}
    (hy : At s (recd s) y Y) :
    Rec (ynBlock n (some yn) y) s (yn = ((yn.val % 2 ^ n : Nat) : ZMod q) ∧ ((yn.val % 2 ^ n : Nat) : ZMod q) = Y)
      (fun _ _ => True) := by
  obtain ⟨bits, hb, hlen, hbits⟩ := bitsOpt_spec false yn n h256 yn.val.testBit (fun _ _ _ => rfl)
  unfold ynBlock
  refine Rec.lift_bind hb ?_
  refine Rec.bind0 (Rec.newWit g 0) ?_
  intro ynv s1 o1 hc
  refine Rec.bind0 (Rec.newWit o1.ok 1) ?_
  intro two s2 o2 hu
  have o12 := o1.trans o2
  have hloop := Rec.synUp (n := bits.length) (f := fun m st => do
      let b ← lift (at! bits m)
      let st ← bitStep b st
      (if m + 1 = bits.length then do
        let yyn ← newInput (some yn)
        enforce [(1, yyn)] [(1, .one)] [(1, st.x.var)]
        enforce [(1, st.x.var)] [(1, .one)] [(1, y)]
      else pure ())
      pure st) (t := (⟨⟨two, some 1⟩, ⟨ynv, some 0⟩⟩ : EqSt (ZMod q))) o12.ok
    (fun m => m + 1 = n → (yn = ((yn.val % 2 ^ n : Nat) : ZMod q) ∧ ((yn.val % 2 ^ n : Nat) : ZMod q) = Y))
    (fun m st s' => EqRec (1 * 2 ^ m) (0 + 1 * (bnat yn.val.testBit m : ZMod q)) st s')
    (by
      refine ⟨by simpa using hu, by simpa [bnat] using o2.mono _ _ hc, by simp, by simp [bnat]⟩)
    (by
      intro m hm st s' o hst
      obtain ⟨B, hB, hBv⟩ := hbits m (by omega)
      refine Rec.lift_bind hB ?_
      refine Rec.bind0 (bitStep_rec o.ok hBv hst) ?_
      intro st1 s3 o3 hst1
      rw [two_pow_step, bit_sum_step] at hst1
      rw [hlen]
      by_cases hmn : m + 1 = n
      · simp only [if_pos hmn]
        have hx : At s3 (recd s3) st1.x.var ((yn.val % 2 ^ n : Nat) : ZMod q) := by
          have := hst1.2.1
          rwa [hmn, bnat_testBit, zero_add, one_mul] at this
        refine (Rec.bind (D := True) (Q := fun _ _ => True)
          (C := yn = ((yn.val % 2 ^ n : Nat) : ZMod q) ∧ ((yn.val % 2 ^ n : Nat) : ZMod q) = Y) ?_ ?_).congr
          (by simp [hmn])
        · refine Rec.bind0 (Rec.newInput o3.ok yn) ?_
          intro v s4 o4 h4
          refine Rec.bind ((Rec.enforce o4.ok (.cons h4 .nil) (.cons (at_one _ _) .nil) (.cons (o4.mono _ _ hx) .nil)).congr
            (by simp)) ?_
          intro _ s5 o5 _
          refine (Rec.enforce o5.ok (.cons (o5.mono _ _ (o4.mono _ _ hx)) .nil) (.cons (at_one _ _) .nil)
            (.cons (o5.mono _ _ (o4.mono _ _ (o3.mono _ _ (o.mono _ _ (o12.mono _ _ hy))))) .nil)).congr (by simp)
        · intro _ s4 o4 _
          exact Rec.pure o4.ok _ (hst1.mono o4)
      · simp only [if_neg hmn]
        refine (Rec.bind0 (Rec.pure o3.ok () (Q := fun _ s4 => s4 = s3) rfl) (D := True) ?_).congr (by simp [hmn])
        rintro _ _ - rfl
        exact Rec.pure o3.ok _ hst1)
  refine (Rec.bind hloop (D := True) (fun _ s3 o3 _ => Rec.pure o3.ok () trivial)).congr ?_
  rw [and_true]
  exact ⟨fun h => h (n - 1) (by omega) (by omega), fun h _ _ _ => h⟩

theorem yBlock_rec {q : Nat} [NeZero q] {s : CS (ZMod q)} (g : Rok s) {n ySize : Nat}
    (h1 : 1 ≤ n) (hny : n ≤ ySize) (h256 : ySize ≤ 256) (hq : q ≤ 2 ^ ySize) {yns : List (Option (ZMod q))} {i : Nat}
    {yn y : ZMod q} (hyn : at! yns i = .ok (some yn)) :
    Rec (yBlock n ySize yns i (some y)) s (yn = ((y.val % 2 ^ n : Nat) : ZMod q)) (fun _ _ => True) := by
  obtain ⟨bits, hb, hlen, hbits⟩ := bitsOpt_spec false y ySize h256 y.val.testBit (fun _ _ _ => rfl)
  have hC : (yn = ((yn.val % 2 ^ n : Nat) : ZMod q) ∧ ((yn.val % 2 ^ n : Nat) : ZMod q) = ((y.val % 2 ^ n : Nat) : ZMod q)) ↔
      yn = ((y.val % 2 ^ n : Nat) : ZMod q) := by
    refine ⟨fun h => h.1.trans h.2, fun h => ?_⟩
    have hv : yn.val = y.val % 2 ^ n := by
      rw [h, ZMod.val_natCast, Nat.mod_eq_of_lt (lt_of_le_of_lt (Nat.mod_le _ _) (ZMod.val_lt y))]
    rw [hv, Nat.mod_mod]
    exact ⟨h, rfl⟩
  unfold yBlock
  refine Rec.lift_bind hb ?_
  refine Rec.bind0 (Rec.newWit g 0) ?_
  intro yv s1 o1 hc
  refine Rec.bind0 (Rec.newWit o1.ok 1) ?_
  intro two s2 o2 hu
  have o12 := o1.trans o2
  have hloop := Rec.synUp (n := bits.length) (f := fun k st => do
      let b ← lift (at! bits k)
      let st ← bitStep b st
      (if k + 1 = bits.length then do
        let yy ← newWit (some y)
        enforce [(1, st.x.var)] [(1, .one)] [(1, yy)]
      else pure ())
      (if k + 1 = n then do
        let ynv ← lift (at! yns i)
        ynBlock n ynv st.x.var
      else pure ())
      pure st) (t := (⟨⟨two, some 1⟩, ⟨yv, some 0⟩⟩ : EqSt (ZMod q))) o12.ok
    (fun m => m + 1 = n → yn = ((y.val % 2 ^ n : Nat) : ZMod q))
    (fun m st s' => EqRec (1 * 2 ^ m) (0 + 1 * (bnat y.val.testBit m : ZMod q)) st s')
    (by
      refine ⟨by simpa using hu, by simpa [bnat] using o2.mono _ _ hc, by simp, by simp [bnat]⟩)
    (by
      intro m hm st s' o hst
      obtain ⟨B, hB, hBv⟩ := hbits m (by omega)
      refine Rec.lift_bind hB ?_
      refine Rec.bind0 (bitStep_rec o.ok hBv hst) ?_
      intro st1 s3 o3 hst1
      rw [two_pow_step, bit_sum_step] at hst1
      rw [hlen]
      refine Rec.bind0 (Q := fun _ _ => True) ?_ ?_
      · by_cases hl : m + 1 = ySize
        · simp only [if_pos hl]
          refine Rec.bind0 (Rec.newWit o3.ok y) ?_
          intro yy s4 o4 h4
          refine (Rec.enforce o4.ok (.cons (o4.mono _ _ hst1.2.1) .nil) (.cons (at_one _ _) .nil) (.cons h4 .nil)).congr ?_
          rw [hl, bnat_testBit, Nat.mod_eq_of_lt (lt_of_lt_of_le (ZMod.val_lt _) hq), ZMod.natCast_zmod_val]
          simp
        · simp only [if_neg hl]
          exact Rec.pure o3.ok () trivial
      · intro _ s4 o4 _
        by_cases hmn : m + 1 = n
        · simp only [if_pos hmn]
          refine (Rec.bind (D := True) (Q := fun _ _ => True) (C := yn = ((y.val % 2 ^ n : Nat) : ZMod q)) ?_ ?_).congr
            (by simp [hmn])
          · refine Rec.lift_bind hyn ?_
            have hx : At s4 (recd s4) st1.x.var ((y.val % 2 ^ n : Nat) : ZMod q) := by
              have := (hst1.mono o4).2.1
              rwa [hmn, bnat_testBit, zero_add, one_mul] at this
            exact (ynBlock_rec o4.ok h1 (by omega) hx).congr hC
          · intro _ s5 o5 _
            exact Rec.pure o5.ok _ ((hst1.mono o4).mono o5)
        · simp only [if_neg hmn]
          refine (Rec.bind0 (Rec.pure o4.ok () (Q := fun _ s5 => s5 = s4) rfl) (D := True) ?_).congr (by simp [hmn])
          rintro _ _ - rfl
          exact Rec.pure o4.ok _ (hst1.mono o4))
  refine (Rec.bind hloop (D := True) (fun _ s3 o3 _ => Rec.pure o3.ok () trivial)).congr ?_
  rw [and_true]
  exact ⟨fun h => h (n - 1) (by omega) (by omega), fun h _ _ _ => h⟩

theorem spaceInput_rec {q : Nat} [NeZero q] {s : CS (ZMod q)} (g : Rok s) {n ySize : Nat}
    (h1 : 1 ≤ n) (hny : n ≤ ySize) (h256 : ySize ≤ 256) (hq : q ≤ 2 ^ ySize) {dcs : List (ZMod q)}
    (hcs : dcs.length = MIMC5_DF_ROUNDS) {key m : ZMod q} {keyVar : Var} (hkey : At s (recd s) keyVar key)
    {xs yns : List (Option (ZMod q))} {i : Nat} {x yn : ZMod q}
    (hx : at! xs i = .ok (some x)) (hyn : at! yns i = .ok (some yn)) :
    Rec (spaceInput n ySize (some key) keyVar (some m) xs dcs yns i) s
      (yn = (((dfSeq 5 dcs (key + x) m MIMC5_DF_ROUNDS).1.val % 2 ^ n : Nat) : ZMod q)) (fun _ _ => True) := by
  unfold spaceInput
  refine Rec.lift_bind hx ?_
  refine Rec.bind0 (Rec.newWit g x) ?_
  intro xv s1 o1 h1'
  refine Rec.lift_bind (r := some (key + x)) rfl ?_
  refine Rec.bind0 (Rec.newWit o1.ok (key + x)) ?_
  intro xl s2 o2 h2
  refine Rec.bind0 ((Rec.enforce o2.ok (.cons (o2.mono _ _ (o1.mono _ _ hkey)) (.cons (o2.mono _ _ h1') .nil))
    (.cons (at_one _ _) .nil) (.cons h2 .nil)).congr (by simp)) ?_
  intro _ s3 o3 _
  refine Rec.bind0 (Rec.newWit o3.ok m) ?_
  intro xr s4 o4 h4
  have hloop := Rec.synUp (n := MIMC5_DF_ROUNDS) (f := fun j st => do
      let st ← spaceDfRound dcs j st
      (if j + 1 = MIMC5_DF_ROUNDS then yBlock n ySize yns i st.xlv else pure ())
      pure st) (t := (⟨xl, some (key + x), xr, some m⟩ : DfSt (ZMod q))) o4.ok
    (fun j => j + 1 = MIMC5_DF_ROUNDS → yn = (((dfSeq 5 dcs (key + x) m MIMC5_DF_ROUNDS).1.val % 2 ^ n : Nat) : ZMod q))
    (fun j st s' => DfPost (dfSeq 5 dcs (key + x) m j).1 (dfSeq 5 dcs (key + x) m j).2 st s' (recd s'))
    ⟨o4.mono _ _ (o3.mono _ _ h2), h4, by rw [opt_some o4.ok.mode]; rfl, by rw [opt_some o4.ok.mode]; rfl⟩
    (by
      intro j hj st s' o hst
      have hc : at! dcs j = .ok (dcs[j]?.getD 0) := by
        rw [at!_of_lt (by omega), List.getElem?_eq_getElem (by omega)]; rfl
      refine Rec.bind0 (Rec.of_run o.ok (spaceDfRound_frame _ _ _) (spaceDfRound_run o.ok.good hc
        (l := (dfSeq 5 dcs (key + x) m j).1) (r := (dfSeq 5 dcs (key + x) m j).2) ?_)
        (Q' := fun st s' => DfPost (dfSeq 5 dcs (key + x) m (j + 1)).1 (dfSeq 5 dcs (key + x) m (j + 1)).2 st s' (recd s')) ?_) ?_
      · exact ⟨(at_cons _ _ _ _ _).mpr hst.1, (at_cons _ _ _ _ _).mpr hst.2.1, hst.2.2⟩
      · intro r s' c hp _
        exact ⟨(at_cons _ _ _ _ _).mpr hp.1, (at_cons _ _ _ _ _).mpr hp.2.1, hp.2.2⟩
      · intro st1 s5 o5 hst1
        by_cases hjn : j + 1 = MIMC5_DF_ROUNDS
        · simp only [if_pos hjn]
          refine (Rec.bind (D := True) (Q := fun _ _ => True) ?_ ?_).congr
            (C := (yn = (((dfSeq 5 dcs (key + x) m MIMC5_DF_ROUNDS).1.val % 2 ^ n : Nat) : ZMod q)) ∧ True) (by simp [hjn])
          · have hv : st1.xlv = some (dfSeq 5 dcs (key + x) m MIMC5_DF_ROUNDS).1 := by
              rw [← hjn, ← opt_some o5.ok.mode]; exact hst1.2.2.1
            rw [hv]
            exact yBlock_rec o5.ok h1 hny h256 hq hyn
          · intro _ s6 o6 _
            refine Rec.pure o6.ok _ ⟨o6.mono _ _ hst1.1, o6.mono _ _ hst1.2.1, ?_, ?_⟩
            · rw [o6.ok.mode, ← o5.ok.mode]; exact hst1.2.2.1
            · rw [o6.ok.mode, ← o5.ok.mode]; exact hst1.2.2.2
        · simp only [if_neg hjn]
          refine (Rec.bind0 (Rec.pure o5.ok () (Q := fun _ s6 => s6 = s5) rfl) (D := True) ?_).congr (by simp [hjn])
          rintro _ _ - rfl
          exact Rec.pure o5.ok _ hst1)
  refine (Rec.bind hloop (D := True) (fun _ s3 o3 _ => Rec.pure o3.ok () trivial)).congr ?_
  rw [and_true]
  exact ⟨fun h => h (MIMC5_DF_ROUNDS - 1) (by decide) (by decide), fun h _ _ _ => h⟩

end PoS
