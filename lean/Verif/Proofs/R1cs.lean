import Verif.Model.R1cs
import Verif.Proofs.Basic
import Mathlib.Algebra.Ring.Basic

/-
Reasoning rules for synthesis steps:
`Run`  - the step succeeds and a satisfying assignment can be extended over it; in proving mode
         the assignment is the recorded one;
`Snd`  - what every satisfying assignment fulfils;
`Same` - two steps produce the same constraint system.
-/

namespace PoS

set_option linter.unusedSectionVars false

variable {F : Type} [CommRing F] {α β σ : Type}

theorem run_bind {x : Syn F α} {f : α → Syn F β} {s s' : CS F} {r : α} (h : x s = .ok (r, s')) :
    (x >>= f) s = f r s' := by
  show (x s >>= fun p => f p.1 p.2) = _
  rw [h]; rfl

theorem run_bind_inv {x : Syn F α} {f : α → Syn F β} {s s' : CS F} {r : β} (h : (x >>= f) s = .ok (r, s')) :
    ∃ r1 s1, x s = .ok (r1, s1) ∧ f r1 s1 = .ok (r, s') := by
  change (x s >>= fun p => f p.1 p.2) = _ at h
  obtain ⟨⟨r1, s1⟩, h1, h2⟩ := bind_eq_ok.mp h
  exact ⟨r1, s1, h1, h2⟩

theorem run_pure (r : α) (s : CS F) : (pure r : Syn F α) s = .ok (r, s) := rfl

theorem lift_ok {x : R α} {r : α} (h : x = .ok r) (s : CS F) : lift x s = .ok (r, s) := by
  unfold lift; rw [h]; rfl

theorem lift_inv {x : R α} {r : α} {s s' : CS F} (h : lift x s = .ok (r, s')) : x = .ok r ∧ s' = s := by
  unfold lift at h
  obtain ⟨r', h1, h2⟩ := bind_eq_ok.mp h
  cases h2
  exact ⟨h1, rfl⟩

theorem newWit_inv {o : Option F} {r : Var} {s s' : CS F} (h : newWit o s = .ok (r, s')) :
    r = .wit s.nWit ∧ s'.nWit = s.nWit + 1 ∧ s'.nInst = s.nInst ∧ s'.cons = s.cons := by
  unfold newWit at h
  simp only [] at h
  by_cases hs : s.setup = true
  · rw [if_pos hs] at h; cases h; exact ⟨rfl, rfl, rfl, rfl⟩
  · rw [if_neg hs] at h
    obtain ⟨v, -, h2⟩ := bind_eq_ok.mp h
    cases h2; exact ⟨rfl, rfl, rfl, rfl⟩

theorem newInput_inv {o : Option F} {r : Var} {s s' : CS F} (h : newInput o s = .ok (r, s')) :
    r = .inst s.nInst ∧ s'.nInst = s.nInst + 1 ∧ s'.nWit = s.nWit ∧ s'.cons = s.cons := by
  unfold newInput at h
  simp only [] at h
  by_cases hs : s.setup = true
  · rw [if_pos hs] at h; cases h; exact ⟨rfl, rfl, rfl, rfl⟩
  · rw [if_neg hs] at h
    obtain ⟨v, -, h2⟩ := bind_eq_ok.mp h
    cases h2; exact ⟨rfl, rfl, rfl, rfl⟩

/-! ### Same constraint system -/

/-- The parts of the state that make up the keys. -/
def ShapeEq (s t : CS F) : Prop := s.nInst = t.nInst ∧ s.nWit = t.nWit ∧ s.cons = t.cons

/-- Whenever both steps succeed from equal shapes they end in equal shapes and related results. -/
def Same (ρ : α → β → Prop) (P : Syn F α) (Q : Syn F β) : Prop :=
  ∀ s t, ShapeEq s t → ∀ a s' b t', P s = .ok (a, s') → Q t = .ok (b, t') → ρ a b ∧ ShapeEq s' t'

theorem Same.bind {α' β' : Type} {ρ : α → β → Prop} {ρ' : α' → β' → Prop} {P : Syn F α} {Q : Syn F β} {f : α → Syn F α'}
    {g : β → Syn F β'} (h : Same ρ P Q) (hf : ∀ a b, ρ a b → Same ρ' (f a) (g b)) :
    Same ρ' (P >>= f) (Q >>= g) := by
  intro s t e a s' b t' h1 h2
  obtain ⟨a1, s1, p1, p2⟩ := run_bind_inv h1
  obtain ⟨b1, t1, q1, q2⟩ := run_bind_inv h2
  obtain ⟨r, e1⟩ := h s t e _ _ _ _ p1 q1
  exact hf _ _ r _ _ e1 _ _ _ _ p2 q2

theorem Same.pure {ρ : α → β → Prop} {a : α} {b : β} (h : ρ a b) : Same ρ (pure a : Syn F α) (pure b : Syn F β) := by
  intro s t e a' s' b' t' h1 h2
  cases h1; cases h2
  exact ⟨h, e⟩

theorem Same.lift {ρ : α → β → Prop} {x : R α} {y : R β} (h : ∀ a b, x = .ok a → y = .ok b → ρ a b) :
    Same ρ (lift x : Syn F α) (lift y : Syn F β) := by
  intro s t e a' s' b' t' h1 h2
  obtain ⟨p1, rfl⟩ := lift_inv h1
  obtain ⟨p2, rfl⟩ := lift_inv h2
  exact ⟨h _ _ p1 p2, e⟩

theorem Same.newWit {o o' : Option F} : Same (fun a b => a = b) (newWit o) (newWit o') := by
  intro s t e a' s' b' t' h1 h2
  obtain ⟨rfl, a1, a2, a3⟩ := newWit_inv h1
  obtain ⟨rfl, b1, b2, b3⟩ := newWit_inv h2
  obtain ⟨e1, e2, e3⟩ := e
  exact ⟨by rw [e2], by rw [a2, b2, e1], by rw [a1, b1, e2], by rw [a3, b3, e3]⟩

theorem Same.newInput {o o' : Option F} : Same (fun a b => a = b) (newInput o) (newInput o') := by
  intro s t e a' s' b' t' h1 h2
  obtain ⟨rfl, a1, a2, a3⟩ := newInput_inv h1
  obtain ⟨rfl, b1, b2, b3⟩ := newInput_inv h2
  obtain ⟨e1, e2, e3⟩ := e
  exact ⟨by rw [e1], by rw [a1, b1, e1], by rw [a2, b2, e2], by rw [a3, b3, e3]⟩

theorem Same.enforce {a b c a' b' c' : LC F} (ha : a = a') (hb : b = b') (hc : c = c') :
    Same (fun _ _ => True) (enforce a b c) (enforce a' b' c') := by
  subst ha; subst hb; subst hc
  intro s t e _ s' _ t' h1 h2
  cases h1; cases h2
  obtain ⟨e1, e2, e3⟩ := e
  exact ⟨trivial, e1, e2, by simp only; rw [e3]⟩

theorem Same.ite {ρ : α → β → Prop} {c d : Prop} [Decidable c] [Decidable d] {P P' : Syn F α} {Q Q' : Syn F β}
    (h : c ↔ d) (h1 : c → Same ρ P Q) (h2 : ¬ c → Same ρ P' Q') :
    Same ρ (if c then P else P') (if d then Q else Q') := by
  by_cases hc : c
  · rw [if_pos hc, if_pos (h.mp hc)]; exact h1 hc
  · rw [if_neg hc, if_neg (fun hd => hc (h.mpr hd))]; exact h2 hc

theorem Same.synUp {τ : Type} {ρ : σ → τ → Prop} {n m : Nat} {f : Nat → σ → Syn F σ} {g : Nat → τ → Syn F τ} {a : σ} {b : τ}
    (hn : n = m) (h0 : ρ a b) (h : ∀ i, ∀ a b, ρ a b → Same ρ (f i a) (g i b)) :
    Same ρ (synUp n f a) (synUp m g b) := by
  subst hn
  induction n with
  | zero => exact Same.pure h0
  | succ n ih => exact Same.bind ih (fun a b hab => h n a b hab)

/-! ### What satisfying assignments fulfil -/

/-- Every assignment satisfying the constraints after the step satisfies those before it and
the stated relation, which may mention the states for the numbers of variables. -/
def Snd (P : Syn F α) (Q : α → CS F → CS F → List F × List F → Prop) : Prop :=
  ∀ s r s', P s = .ok (r, s') → ∀ a, Satisfies s'.cons a → Satisfies s.cons a ∧ Q r s s' a

theorem Snd.bind {P : Syn F α} {f : α → Syn F β} {Q : α → CS F → CS F → List F × List F → Prop}
    {Q' : α → β → CS F → CS F → List F × List F → Prop} (h : Snd P Q) (hf : ∀ r, Snd (f r) (Q' r)) :
    Snd (P >>= f) (fun b s s' a => ∃ r s1, Q r s s1 a ∧ Q' r b s1 s' a) := by
  intro s b s' e a hs
  obtain ⟨r1, s1, p1, p2⟩ := run_bind_inv e
  obtain ⟨h1, h2⟩ := hf r1 s1 _ _ p2 a hs
  obtain ⟨h3, h4⟩ := h s _ _ p1 a h1
  exact ⟨h3, r1, s1, h4, h2⟩

theorem Snd.weaken {P : Syn F α} {Q Q' : α → CS F → CS F → List F × List F → Prop} (h : Snd P Q)
    (hq : ∀ r s s' a, Q r s s' a → Q' r s s' a) :
    Snd P Q' := fun s r s' e a hs => ⟨(h s r s' e a hs).1, hq _ _ _ _ (h s r s' e a hs).2⟩

theorem Snd.pure (r : α) : Snd (pure r : Syn F α) (fun r' s s' _ => r' = r ∧ s' = s) := by
  intro s r' s' e a hs
  cases e
  exact ⟨hs, rfl, rfl⟩

theorem Snd.lift (x : R α) : Snd (lift x : Syn F α) (fun r s s' _ => x = .ok r ∧ s' = s) := by
  intro s r' s' e a hs
  obtain ⟨h, rfl⟩ := lift_inv e
  exact ⟨hs, h, rfl⟩

theorem Snd.newWit (o : Option F) :
    Snd (newWit o) (fun r s s' _ => r = .wit s.nWit ∧ s'.nWit = s.nWit + 1 ∧ s'.nInst = s.nInst) := by
  intro s r' s' e a hs
  obtain ⟨h1, h2, h3, h⟩ := newWit_inv e
  exact ⟨h ▸ hs, h1, h2, h3⟩

theorem Snd.newInput (o : Option F) :
    Snd (newInput o) (fun r s s' _ => r = .inst s.nInst ∧ s'.nInst = s.nInst + 1 ∧ s'.nWit = s.nWit) := by
  intro s r' s' e a hs
  obtain ⟨h1, h2, h3, h⟩ := newInput_inv e
  exact ⟨h ▸ hs, h1, h2, h3⟩

theorem Snd.enforce (x y z : LC F) : Snd (enforce x y z) (fun _ s s' a => evalLC a x * evalLC a y = evalLC a z ∧
    s'.nInst = s.nInst ∧ s'.nWit = s.nWit) := by
  intro s r' s' e a hs
  cases e
  exact ⟨fun c hc => hs c (by simp [hc]), hs (x, y, z) (by simp), rfl, rfl⟩

theorem Snd.ite {c : Prop} [Decidable c] {P P' : Syn F α} {Q Q' : α → CS F → CS F → List F × List F → Prop}
    (h1 : Snd P Q) (h2 : Snd P' Q') :
    Snd (if c then P else P') (fun r s s' a => (c ∧ Q r s s' a) ∨ (¬ c ∧ Q' r s s' a)) := by
  by_cases hc : c
  · rw [if_pos hc]; exact h1.weaken (fun r s s' a h => Or.inl ⟨hc, h⟩)
  · rw [if_neg hc]; exact h2.weaken (fun r s s' a h => Or.inr ⟨hc, h⟩)

theorem Snd.synUp {n : Nat} {f : Nat → σ → Syn F σ} {t : σ} (J : Nat → σ → CS F → List F × List F → Prop)
    (h : ∀ i < n, ∀ t, Snd (f i t) (fun t' s s' a => J i t s a → J (i + 1) t' s' a)) :
    Snd (synUp n f t) (fun t' s s' a => J 0 t s a → J n t' s' a) := by
  induction n with
  | zero => exact (Snd.pure t).weaken (fun r s s' a e h => by rw [e.1, e.2]; exact h)
  | succ n ih =>
    refine (Snd.bind (ih (fun i hi => h i (by omega))) (fun t => h n (by omega) t)).weaken ?_
    rintro r s s' a ⟨t', s1, h1, h2⟩ h0
    exact h2 (h1 h0)

/-- Value of the usual linear combinations. -/
theorem evalLC_nil (a : List F × List F) : evalLC a [] = 0 := rfl
theorem evalLC_cons (a : List F × List F) (c : F) (v : Var) (ts : LC F) :
    evalLC a ((c, v) :: ts) = c * valA a v + evalLC a ts := rfl
theorem valA_one (a : List F × List F) : valA a .one = 1 := rfl

/-! ### Extending assignments -/

/-- The variable exists. -/
def InR (s : CS F) : Var → Prop
  | .one => True
  | .inst i => i < s.nInst
  | .wit i => i < s.nWit

/-- The assignment is one for the current constraint system; in proving mode it is the recorded
one. -/
structure Good (s : CS F) (a : List F × List F) : Prop where
  li : a.1.length = s.nInst
  lw : a.2.length = s.nWit
  closed : ∀ c ∈ s.cons, (∀ t ∈ c.1, InR s t.2) ∧ (∀ t ∈ c.2.1, InR s t.2) ∧ ∀ t ∈ c.2.2, InR s t.2
  sat : Satisfies s.cons a
  recd : s.setup = false → a = (s.inst, s.wit)

theorem good_init (b : Bool) : Good (CS.init F b) ([], []) :=
  ⟨rfl, rfl, (by intro c hc; cases hc), (by intro c hc; cases hc), fun _ => rfl⟩

/-- The variable exists and has this value. -/
def At (s : CS F) (a : List F × List F) (v : Var) (x : F) : Prop := InR s v ∧ valA a v = x

theorem at_one (s : CS F) (a : List F × List F) : At s a .one 1 := ⟨trivial, rfl⟩

/-- `(s', a')` extends `(s, a)` with the public inputs `pub`. -/
structure Out (s : CS F) (a : List F × List F) (s' : CS F) (a' : List F × List F) (pub : List F) : Prop where
  good : Good s' a'
  mode : s'.setup = s.setup
  pubs : a'.1 = a.1 ++ pub
  mono : ∀ v x, At s a v x → At s' a' v x

theorem Out.refl {s : CS F} {a : List F × List F} (g : Good s a) : Out s a s a [] :=
  ⟨g, rfl, by simp, fun _ _ h => h⟩

theorem Out.trans {s s1 s2 : CS F} {a a1 a2 : List F × List F} {p q : List F} (h : Out s a s1 a1 p)
    (h' : Out s1 a1 s2 a2 q) : Out s a s2 a2 (p ++ q) :=
  ⟨h'.good, h'.mode.trans h.mode, by rw [h'.pubs, h.pubs, List.append_assoc], fun v x hx => h'.mono v x (h.mono v x hx)⟩

/-- The step succeeds, extends the assignment with the public inputs `pub` and establishes `Q`. -/
def Run (P : Syn F α) (s : CS F) (a : List F × List F) (pub : List F)
    (Q : α → CS F → List F × List F → Prop) : Prop :=
  ∃ r s' a', P s = .ok (r, s') ∧ Out s a s' a' pub ∧ Q r s' a'

theorem Run.bind {P : Syn F α} {f : α → Syn F β} {s : CS F} {a : List F × List F} {p q pub : List F}
    {Q : α → CS F → List F × List F → Prop} {Q' : β → CS F → List F × List F → Prop} (h : Run P s a p Q)
    (hp : pub = p ++ q)
    (hf : ∀ r s' a', Out s a s' a' p → Q r s' a' → Run (f r) s' a' q Q') : Run (P >>= f) s a pub Q' := by
  subst hp
  obtain ⟨r, s1, a1, e, o, hq⟩ := h
  obtain ⟨r2, s2, a2, e2, o2, hq2⟩ := hf r s1 a1 o hq
  exact ⟨r2, s2, a2, by rw [run_bind e, e2], o.trans o2, hq2⟩

/-- `Run.bind` when the first step adds no public input. -/
theorem Run.bind0 {P : Syn F α} {f : α → Syn F β} {s : CS F} {a : List F × List F} {q : List F}
    {Q : α → CS F → List F × List F → Prop} {Q' : β → CS F → List F × List F → Prop} (h : Run P s a [] Q)
    (hf : ∀ r s' a', Out s a s' a' [] → Q r s' a' → Run (f r) s' a' q Q') : Run (P >>= f) s a q Q' :=
  Run.bind h (by simp) hf

theorem Run.weaken {P : Syn F α} {s : CS F} {a : List F × List F} {p : List F}
    {Q Q' : α → CS F → List F × List F → Prop} (h : Run P s a p Q)
    (hq : ∀ r s' a', Out s a s' a' p → Q r s' a' → Q' r s' a') : Run P s a p Q' := by
  obtain ⟨r, s1, a1, e, o, h1⟩ := h
  exact ⟨r, s1, a1, e, o, hq _ _ _ o h1⟩

theorem Run.pure {s : CS F} {a : List F × List F} (g : Good s a) (r : α) {Q : α → CS F → List F × List F → Prop}
    (hq : Q r s a) : Run (Pure.pure r : Syn F α) s a [] Q := ⟨r, s, a, rfl, Out.refl g, hq⟩

theorem Run.lift {s : CS F} {a : List F × List F} (g : Good s a) {x : R α} {r : α} (h : x = .ok r) :
    Run (lift x) s a [] (fun r' s' a' => r' = r ∧ s' = s ∧ a' = a) :=
  ⟨r, s, a, lift_ok h s, Out.refl g, rfl, rfl, rfl⟩

theorem valA_mono {s : CS F} {a : List F × List F} (h1 : a.1.length = s.nInst) (h2 : a.2.length = s.nWit) (p w : List F)
    (v : Var) (h : InR s v) : valA (a.1 ++ p, a.2 ++ w) v = valA a v := by
  cases v with
  | one => rfl
  | inst i => simp only [valA]; rw [List.getElem?_append_left (by simp only [InR] at h; omega)]
  | wit i => simp only [valA]; rw [List.getElem?_append_left (by simp only [InR] at h; omega)]

theorem evalLC_congr {a b : List F × List F} {lc : LC F} (h : ∀ t ∈ lc, valA a t.2 = valA b t.2) :
    evalLC a lc = evalLC b lc := by
  induction lc with
  | nil => rfl
  | cons t ts ih =>
    rw [evalLC, evalLC, h t (by simp), ih (fun u hu => h u (by simp [hu]))]

theorem extend_aux {s s' : CS F} {a : List F × List F} (g : Good s a) (p w : List F)
    (hi : s'.nInst = s.nInst + p.length) (hw : s'.nWit = s.nWit + w.length) (hc : s'.cons = s.cons)
    (hm : s'.setup = s.setup)
    (hr : s'.setup = false → s'.inst = s.inst ++ p ∧ s'.wit = s.wit ++ w) :
    Out s a s' (a.1 ++ p, a.2 ++ w) p := by
  have hin : ∀ v, InR s v → InR s' v := by
    intro v hv
    cases v with
    | one => trivial
    | inst i => simp only [InR] at *; omega
    | wit i => simp only [InR] at *; omega
  refine ⟨⟨by simp [g.li, hi], by simp [g.lw, hw], ?_, ?_, ?_⟩, hm, rfl, ?_⟩
  · intro c h
    rw [hc] at h
    obtain ⟨h1, h2, h3⟩ := g.closed c h
    exact ⟨fun t ht => hin _ (h1 t ht), fun t ht => hin _ (h2 t ht), fun t ht => hin _ (h3 t ht)⟩
  · intro c h
    rw [hc] at h
    obtain ⟨h1, h2, h3⟩ := g.closed c h
    have key : ∀ lc : LC F, (∀ t ∈ lc, InR s t.2) → evalLC (a.1 ++ p, a.2 ++ w) lc = evalLC a lc :=
      fun lc hlc => evalLC_congr (fun t ht => valA_mono g.li g.lw p w _ (hlc t ht))
    rw [key _ h1, key _ h2, key _ h3]
    exact g.sat c h
  · intro hs
    obtain ⟨e1, e2⟩ := hr hs
    have := g.recd (by rw [← hm]; exact hs)
    rw [e1, e2, this]
  · rintro v x ⟨h1, h2⟩
    exact ⟨hin v h1, by rw [valA_mono g.li g.lw p w v h1, h2]⟩

theorem Run.newWit {s : CS F} {a : List F × List F} (g : Good s a) {o : Option F} (x : F)
    (h : s.setup = false → o = some x) : Run (newWit o) s a [] (fun v s' a' => At s' a' v x) := by
  have hat : ∀ s' : CS F, s'.nWit = s.nWit + 1 → At s' (a.1 ++ [], a.2 ++ [x]) (.wit s.nWit) x := by
    intro s' h'
    refine ⟨by simp only [InR]; omega, ?_⟩
    simp [valA, ← g.lw]
  unfold PoS.newWit
  by_cases hs : s.setup = true
  · refine ⟨.wit s.nWit, { s with nWit := s.nWit + 1 }, (a.1 ++ [], a.2 ++ [x]), ?_, ?_, ?_⟩
    · simp only []; rw [if_pos hs]
    · refine extend_aux g [] [x] rfl rfl rfl rfl (fun h' => ?_)
      simp only at h'; rw [hs] at h'; cases h'
    · exact hat _ rfl
  · have hs' : s.setup = false := by simpa using hs
    refine ⟨.wit s.nWit, { s with nWit := s.nWit + 1, wit := s.wit ++ [x] }, (a.1 ++ [], a.2 ++ [x]), ?_, ?_, ?_⟩
    · simp only []; rw [if_neg hs, h hs']; rfl
    · exact extend_aux g [] [x] rfl rfl rfl rfl (fun _ => by simp)
    · exact hat _ rfl

theorem Run.newInput {s : CS F} {a : List F × List F} (g : Good s a) {o : Option F} (x : F)
    (h : s.setup = false → o = some x) :
    Run (newInput o) s a [x] (fun v s' a' => v = .inst a.1.length ∧ At s' a' v x) := by
  have hat : ∀ s' : CS F, s'.nInst = s.nInst + 1 → .inst s.nInst = Var.inst a.1.length ∧
      At s' (a.1 ++ [x], a.2 ++ []) (.inst s.nInst) x := by
    intro s' h'
    refine ⟨by rw [g.li], by simp only [InR]; omega, ?_⟩
    simp [valA, ← g.li]
  unfold PoS.newInput
  by_cases hs : s.setup = true
  · refine ⟨.inst s.nInst, { s with nInst := s.nInst + 1 }, (a.1 ++ [x], a.2 ++ []), ?_, ?_, ?_⟩
    · simp only []; rw [if_pos hs]
    · refine extend_aux g [x] [] rfl rfl rfl rfl (fun h' => ?_)
      simp only at h'; rw [hs] at h'; cases h'
    · exact hat _ rfl
  · have hs' : s.setup = false := by simpa using hs
    refine ⟨.inst s.nInst, { s with nInst := s.nInst + 1, inst := s.inst ++ [x] }, (a.1 ++ [x], a.2 ++ []), ?_, ?_, ?_⟩
    · simp only []; rw [if_neg hs, h hs']; rfl
    · exact extend_aux g [x] [] rfl rfl rfl rfl (fun _ => by simp)
    · exact hat _ rfl

/-- A variable that is public or private depending on a condition. -/
theorem Run.newVar {s : CS F} {a : List F × List F} (g : Good s a) {o : Option F} (x : F)
    (h : s.setup = false → o = some x) {c : Prop} [Decidable c] :
    Run (if c then PoS.newInput o else PoS.newWit o) s a (if c then [x] else [])
      (fun v s' a' => At s' a' v x ∧ (c → v = .inst a.1.length)) := by
  by_cases hc : c
  · simp only [if_pos hc]
    exact (Run.newInput g x h).weaken (fun r s' a' _ hq => ⟨hq.2, fun _ => hq.1⟩)
  · simp only [if_neg hc]
    exact (Run.newWit g x h).weaken (fun r s' a' _ hq => ⟨hq, fun h => absurd h hc⟩)

/-- Value of a linear combination whose variables have known values. -/
inductive LCAt (s : CS F) (a : List F × List F) : LC F → F → Prop
  | nil : LCAt s a [] 0
  | cons {c : F} {v : Var} {x : F} {ts : LC F} {y : F} : At s a v x → LCAt s a ts y → LCAt s a ((c, v) :: ts) (c * x + y)

theorem LCAt.spec {s : CS F} {a : List F × List F} {lc : LC F} {x : F} (h : LCAt s a lc x) :
    (∀ t ∈ lc, InR s t.2) ∧ evalLC a lc = x := by
  induction h with
  | nil => exact ⟨by simp, rfl⟩
  | cons h _ ih =>
    refine ⟨?_, ?_⟩
    · intro t ht
      rcases List.mem_cons.mp ht with rfl | ht
      · exact h.1
      · exact ih.1 t ht
    · rw [evalLC, ih.2, h.2]

theorem Run.enforce {s : CS F} {a : List F × List F} (g : Good s a) {p q r : LC F} {x y z : F} (h1 : LCAt s a p x)
    (h2 : LCAt s a q y) (h3 : LCAt s a r z) (h : x * y = z) :
    Run (enforce p q r) s a [] (fun _ _ a' => a' = a) := by
  refine ⟨(), { s with cons := s.cons ++ [(p, q, r)] }, a, rfl, ⟨⟨g.li, g.lw, ?_, ?_, g.recd⟩, rfl, by simp, ?_⟩, rfl⟩
  · intro c hc
    rcases List.mem_append.mp hc with hc | hc
    · exact g.closed c hc
    · rw [List.mem_singleton.mp hc]
      exact ⟨h1.spec.1, h2.spec.1, h3.spec.1⟩
  · intro c hc
    rcases List.mem_append.mp hc with hc | hc
    · exact g.sat c hc
    · rw [List.mem_singleton.mp hc]
      show evalLC a p * evalLC a q = evalLC a r
      rw [h1.spec.2, h2.spec.2, h3.spec.2, h]
  · rintro v x hv
    exact hv

/-- `Run.bind` after a computation that does not touch the constraint system. -/
theorem Run.lift_bind {s : CS F} {a : List F × List F} {x : R α} {r : α} (h : x = .ok r) {f : α → Syn F β}
    {q : List F} {Q : β → CS F → List F × List F → Prop} (hf : Run (f r) s a q Q) : Run (PoS.lift x >>= f) s a q Q := by
  obtain ⟨r2, s2, a2, e2, o2, hq2⟩ := hf
  exact ⟨r2, s2, a2, by rw [run_bind (lift_ok h s), e2], o2, hq2⟩

/-- `Run.bind` after a constraint. -/
theorem Run.enforce_bind {s : CS F} {a : List F × List F} (g : Good s a) {p q r : LC F} {x y z : F}
    (h1 : LCAt s a p x) (h2 : LCAt s a q y) (h3 : LCAt s a r z) (h : x * y = z) {f : Unit → Syn F β} {pub : List F}
    {Q : β → CS F → List F × List F → Prop} (hf : ∀ s', Out s a s' a [] → Run (f ()) s' a pub Q) :
    Run (PoS.enforce p q r >>= f) s a pub Q := by
  refine Run.bind0 (Run.enforce g h1 h2 h3 h) ?_
  rintro _ s' a' o rfl
  exact hf s' o

/-- A last step with a trivial continuation. -/
theorem Run.last {s : CS F} {a : List F × List F} {P : Syn F α} {p : List F}
    {Q : α → CS F → List F × List F → Prop} {f : α → Syn F β} {r : β} {Q' : β → CS F → List F × List F → Prop}
    (h : Run P s a p Q) (hf : ∀ v, f v = Pure.pure r) (hq : ∀ v s' a', Out s a s' a' p → Q v s' a' → Q' r s' a') :
    Run (P >>= f) s a p Q' := by
  refine Run.bind h (List.append_nil _).symm ?_
  intro v s' a' o h'
  rw [hf]
  exact Run.pure o.good r (hq v s' a' o h')

theorem Run.synUp {n : Nat} {f : Nat → σ → Syn F σ} {t : σ} {s : CS F} {a : List F × List F} (g : Good s a)
    (pub : Nat → List F) (I : Nat → σ → CS F → List F × List F → Prop) (h0 : I 0 t s a)
    (h : ∀ i < n, ∀ t s' a', Out s a s' a' ((List.range i).flatMap pub) → I i t s' a' →
      Run (f i t) s' a' (pub i) (I (i + 1))) :
    Run (synUp n f t) s a ((List.range n).flatMap pub) (I n) := by
  induction n with
  | zero => exact Run.pure g t h0
  | succ n ih =>
    refine Run.bind (ih (fun i hi => h i (by omega))) ?_ (fun t s' a' o hi => h n (by omega) t s' a' o hi)
    rw [List.range_succ, List.flatMap_append]
    simp

/-- The values a circuit sees: none in setup mode. -/
def opt (b : Bool) (x : F) : Option F := if b then none else some x

theorem opt_some {b : Bool} {x : F} (h : b = false) : opt b x = some x := by rw [h]; rfl

theorem opt_map {b : Bool} {x : F} (f : F → F) : (opt b x).map f = opt b (f x) := by
  cases b <;> rfl

theorem mapOpt_opt {b : Bool} {x y : F} {f : F → R F} (h : b = false → f x = .ok y) :
    mapOpt (opt b x) f = .ok (opt b y) := by
  cases b with
  | true => rfl
  | false => simp only [opt, mapOpt, Bool.false_eq_true, if_false, Option.elim]; rw [h rfl]; rfl

@[simp] theorem unwrap_some {x : F} : unwrap! (some x) = .ok x := rfl

/-! ### Counting variables -/

/-- A step that succeeds adds `w` witnesses and `p` public inputs. -/
def Cnt (P : Syn F α) (w p : Nat) : Prop :=
  ∀ s r s', P s = .ok (r, s') → s'.nWit = s.nWit + w ∧ s'.nInst = s.nInst + p

theorem Cnt.bind {P : Syn F α} {f : α → Syn F β} {w p w' p' W T : Nat} (h : Cnt P w p) (hf : ∀ r, Cnt (f r) w' p')
    (hW : W = w + w') (hT : T = p + p') : Cnt (P >>= f) W T := by
  intro s r s' e
  obtain ⟨r1, s1, e1, e2⟩ := run_bind_inv e
  obtain ⟨a1, a2⟩ := h _ _ _ e1
  obtain ⟨b1, b2⟩ := hf _ _ _ _ e2
  omega

theorem Cnt.pure (r : α) : Cnt (Pure.pure r : Syn F α) 0 0 := by
  intro s r' s' e; cases e; exact ⟨rfl, rfl⟩

theorem Cnt.lift (x : R α) : Cnt (PoS.lift x : Syn F α) 0 0 := by
  intro s r' s' e; obtain ⟨-, rfl⟩ := lift_inv e; exact ⟨rfl, rfl⟩

theorem Cnt.newWit (o : Option F) : Cnt (PoS.newWit o) 1 0 := by
  intro s r' s' e; obtain ⟨-, h2, h3, -⟩ := newWit_inv e; exact ⟨h2, h3⟩

theorem Cnt.newInput (o : Option F) : Cnt (PoS.newInput o) 0 1 := by
  intro s r' s' e; obtain ⟨-, h2, h3, -⟩ := newInput_inv e; exact ⟨h3, h2⟩

theorem Cnt.enforce (x y z : LC F) : Cnt (PoS.enforce x y z) 0 0 := by
  intro s r' s' e; cases e; exact ⟨rfl, rfl⟩

theorem Cnt.ite {c : Prop} [Decidable c] {P P' : Syn F α} {w p w' p' : Nat} (h : Cnt P w p) (h' : Cnt P' w' p') :
    Cnt (if c then P else P') (if c then w else w') (if c then p else p') := by
  by_cases hc : c
  · rw [if_pos hc, if_pos hc, if_pos hc]; exact h
  · rw [if_neg hc, if_neg hc, if_neg hc]; exact h'

theorem Cnt.synUp {n : Nat} {f : Nat → σ → Syn F σ} {t : σ} {w p : Nat} (h : ∀ i t, Cnt (f i t) w p) :
    Cnt (PoS.synUp n f t) (n * w) (n * p) := by
  induction n with
  | zero => rw [Nat.zero_mul, Nat.zero_mul]; exact Cnt.pure t
  | succ n ih => exact Cnt.bind ih (fun t => h n t) (by ring) (by ring)

theorem Snd.cnt {P : Syn F α} {Q : α → CS F → CS F → List F × List F → Prop} {w p : Nat} (h : Snd P Q) (c : Cnt P w p) :
    Snd P (fun r s s' a => Q r s s' a ∧ s'.nWit = s.nWit + w ∧ s'.nInst = s.nInst + p) :=
  fun s r s' e a hs => ⟨(h s r s' e a hs).1, (h s r s' e a hs).2, c s r s' e⟩

/-- `Run.newWit` with the position of the new variable. -/
theorem Run.newWit_pos {s : CS F} {a : List F × List F} (g : Good s a) {o : Option F} (x : F)
    (h : s.setup = false → o = some x) :
    Run (PoS.newWit o) s a [] (fun v s' a' => At s' a' v x ∧ v = .wit s.nWit) := by
  obtain ⟨v, s', a', e, o, hq⟩ := Run.newWit g x h
  exact ⟨v, s', a', e, o, hq, (newWit_inv e).1⟩

/-- The number of variables after a run. -/
theorem Run.cnt {P : Syn F α} {s : CS F} {a : List F × List F} {pub : List F}
    {Q : α → CS F → List F × List F → Prop} {w p : Nat} (h : Run P s a pub Q) (c : Cnt P w p) :
    Run P s a pub (fun r s' a' => Q r s' a' ∧ s'.nWit = s.nWit + w) := by
  obtain ⟨v, s', a', e, o, hq⟩ := h
  exact ⟨v, s', a', e, o, hq, (c _ _ _ e).1⟩

end PoS
