import Verif.Proofs.HashCircuit

/-
The shape of each circuit does not depend on the values.
-/

namespace PoS

set_option linter.unusedSectionVars false

variable {F : Type} [CommRing F]

/-- Equal results of two successful lookups in the same list. -/
theorem Same.at {α : Type} {l : List α} {i : Nat} : Same (F := F) (fun a b => a = b) (PoS.lift (at! l i)) (PoS.lift (at! l i)) :=
  Same.lift (fun a b h1 h2 => Except.ok.inj (h1.symm.trans h2))

/-- Results of which nothing is known. -/
theorem Same.any {α β : Type} {x : R α} {y : R β} : Same (F := F) (fun _ _ => True) (PoS.lift x) (PoS.lift y) :=
  Same.lift (fun _ _ _ _ => trivial)

theorem Same.weaken {α β : Type} {ρ ρ' : α → β → Prop} {P : Syn F α} {Q : Syn F β} (h : Same ρ P Q)
    (hr : ∀ a b, ρ a b → ρ' a b) : Same ρ' P Q :=
  fun s t e a s' b t' h1 h2 => ⟨hr _ _ (h s t e a s' b t' h1 h2).1, (h s t e a s' b t' h1 h2).2⟩

/-- The two states hold the same variables. -/
def DfEq (a b : DfSt F) : Prop := a.xl = b.xl ∧ a.xr = b.xr
/-- The same variable. -/
def VvEq (a b : VarVal F) : Prop := a.var = b.var
/-- The two states hold the same variables. -/
def EqEq (a b : EqSt F) : Prop := a.two.var = b.two.var ∧ a.x.var = b.x.var
/-- The two states hold the same variables. -/
def PowEq (a b : PowSt F) : Prop := a.y.var = b.y.var ∧ a.g.var = b.g.var

theorem mimc3DfRound_same (cs : List F) (i : Nat) (a b : DfSt F) (h : DfEq a b) :
    Same DfEq (mimc3DfRound cs i a) (mimc3DfRound cs i b) := by
  obtain ⟨h1, h2⟩ := h
  unfold mimc3DfRound
  refine Same.bind Same.at (fun c c' e => ?_)
  subst e
  refine Same.bind Same.newWit (fun v v' e => ?_)
  subst e
  refine Same.bind (Same.enforce (by rw [h1]) (by rw [h1]) rfl) (fun _ _ _ => ?_)
  refine Same.bind Same.any (fun _ _ _ => ?_)
  refine Same.bind (Same.ite Iff.rfl (fun _ => Same.newInput) (fun _ => Same.newWit)) (fun w w' e => ?_)
  subst e
  refine Same.bind (Same.enforce rfl (by rw [h1]) (by rw [h2])) (fun _ _ _ => ?_)
  exact Same.pure ⟨rfl, h1⟩

theorem mimc5DfRound_same (cs : List F) (i : Nat) (a b : DfSt F) (h : DfEq a b) :
    Same DfEq (mimc5DfRound cs i a) (mimc5DfRound cs i b) := by
  obtain ⟨h1, h2⟩ := h
  unfold mimc5DfRound
  refine Same.bind Same.at (fun c c' e => ?_)
  subst e
  refine Same.bind Same.newWit (fun v v' e => ?_)
  subst e
  refine Same.bind (Same.enforce (by rw [h1]) (by rw [h1]) rfl) (fun _ _ _ => ?_)
  refine Same.bind Same.newWit (fun v v' e => ?_)
  subst e
  refine Same.bind (Same.enforce rfl rfl rfl) (fun _ _ _ => ?_)
  refine Same.bind Same.any (fun _ _ _ => ?_)
  refine Same.bind (Same.ite Iff.rfl (fun _ => Same.newInput) (fun _ => Same.newWit)) (fun w w' e => ?_)
  subst e
  refine Same.bind (Same.enforce rfl (by rw [h1]) (by rw [h2])) (fun _ _ _ => ?_)
  exact Same.pure ⟨rfl, h1⟩

theorem spaceDfRound_same (cs : List F) (i : Nat) (a b : DfSt F) (h : DfEq a b) :
    Same DfEq (spaceDfRound cs i a) (spaceDfRound cs i b) := by
  obtain ⟨h1, h2⟩ := h
  unfold spaceDfRound
  refine Same.bind Same.at (fun c c' e => ?_)
  subst e
  refine Same.bind Same.newWit (fun v v' e => ?_)
  subst e
  refine Same.bind (Same.enforce (by rw [h1]) (by rw [h1]) rfl) (fun _ _ _ => ?_)
  refine Same.bind Same.newWit (fun v v' e => ?_)
  subst e
  refine Same.bind (Same.enforce rfl rfl rfl) (fun _ _ _ => ?_)
  refine Same.bind Same.any (fun _ _ _ => ?_)
  refine Same.bind Same.newWit (fun w w' e => ?_)
  subst e
  refine Same.bind (Same.enforce rfl (by rw [h1]) (by rw [h2])) (fun _ _ _ => ?_)
  exact Same.pure ⟨rfl, h1⟩

theorem mimc3DfCircuit_same (xl xr xl' xr' : Option F) (cs : List F) :
    Same (fun _ _ => True) (mimc3DfCircuit xl xr cs) (mimc3DfCircuit xl' xr' cs) := by
  unfold mimc3DfCircuit
  refine Same.ite Iff.rfl (fun _ => Same.any) (fun _ => ?_)
  refine Same.bind Same.newWit (fun v v' e => ?_)
  subst e
  refine Same.bind Same.newWit (fun v v' e => ?_)
  subst e
  exact Same.bind (Same.synUp rfl ⟨rfl, rfl⟩ (mimc3DfRound_same cs)) (fun _ _ _ => Same.pure trivial)

theorem mimc5DfCircuit_same (xl xr xl' xr' : Option F) (cs : List F) :
    Same (fun _ _ => True) (mimc5DfCircuit xl xr cs) (mimc5DfCircuit xl' xr' cs) := by
  unfold mimc5DfCircuit
  refine Same.ite Iff.rfl (fun _ => Same.any) (fun _ => ?_)
  refine Same.bind Same.newWit (fun v v' e => ?_)
  subst e
  refine Same.bind Same.newWit (fun v v' e => ?_)
  subst e
  exact Same.bind (Same.synUp rfl ⟨rfl, rfl⟩ (mimc5DfRound_same cs)) (fun _ _ _ => Same.pure trivial)

theorem hashT_same (cs : List F) (x x' k k' : VarVal F) (hx : VvEq x x') (hk : VvEq k k') (j : Nat) (a b : VarVal F)
    (h : VvEq a b) : Same VvEq (hashT cs x k j a) (hashT cs x' k' j b) := by
  unfold VvEq at hx hk h
  unfold hashT
  refine Same.ite Iff.rfl (fun _ => ?_) (fun _ => ?_)
  · refine Same.bind Same.any (fun _ _ _ => ?_)
    refine Same.bind Same.newWit (fun v v' e => ?_)
    subst e
    exact Same.bind (Same.enforce (by rw [hx, hk]) rfl rfl) (fun _ _ _ => Same.pure rfl)
  · refine Same.bind Same.at (fun c c' e => ?_)
    subst e
    refine Same.bind Same.any (fun _ _ _ => ?_)
    refine Same.bind Same.newWit (fun v v' e => ?_)
    subst e
    exact Same.bind (Same.enforce (by rw [h, hk]) rfl rfl) (fun _ _ _ => Same.pure rfl)

theorem mimc5HashRound_same (cs : List F) (x x' k k' : VarVal F) (hx : VvEq x x') (hk : VvEq k k') (j : Nat) (a b : VarVal F)
    (h : VvEq a b) : Same VvEq (mimc5HashRound cs x k j a) (mimc5HashRound cs x' k' j b) := by
  unfold mimc5HashRound
  refine Same.bind (hashT_same cs x x' k k' hx hk j a b h) (fun t t' ht => ?_)
  unfold VvEq at ht
  refine Same.bind Same.newWit (fun v v' e => ?_)
  subst e
  refine Same.bind (Same.enforce (by rw [ht]) (by rw [ht]) rfl) (fun _ _ _ => ?_)
  refine Same.bind Same.newWit (fun v v' e => ?_)
  subst e
  refine Same.bind (Same.enforce rfl rfl rfl) (fun _ _ _ => ?_)
  refine Same.bind Same.any (fun _ _ _ => ?_)
  refine Same.bind Same.newWit (fun v v' e => ?_)
  subst e
  exact Same.bind (Same.enforce rfl (by rw [ht]) rfl) (fun _ _ _ => Same.pure rfl)

theorem mimc7HashRound_same (cs : List F) (x x' k k' : VarVal F) (hx : VvEq x x') (hk : VvEq k k') (j : Nat) (a b : VarVal F)
    (h : VvEq a b) : Same VvEq (mimc7HashRound cs x k j a) (mimc7HashRound cs x' k' j b) := by
  unfold mimc7HashRound
  refine Same.bind (hashT_same cs x x' k k' hx hk j a b h) (fun t t' ht => ?_)
  unfold VvEq at ht
  refine Same.bind Same.newWit (fun v v' e => ?_)
  subst e
  refine Same.bind (Same.enforce (by rw [ht]) (by rw [ht]) rfl) (fun _ _ _ => ?_)
  refine Same.bind Same.newWit (fun v v' e => ?_)
  subst e
  refine Same.bind (Same.enforce rfl rfl rfl) (fun _ _ _ => ?_)
  refine Same.bind Same.any (fun _ _ _ => ?_)
  refine Same.bind Same.newWit (fun v v' e => ?_)
  subst e
  refine Same.bind (Same.enforce rfl rfl rfl) (fun _ _ _ => ?_)
  refine Same.bind Same.any (fun _ _ _ => ?_)
  refine Same.bind Same.newWit (fun v v' e => ?_)
  subst e
  exact Same.bind (Same.enforce rfl (by rw [ht]) rfl) (fun _ _ _ => Same.pure rfl)

theorem hashInput_same {rounds : Nat} {round : VarVal F → VarVal F → Nat → VarVal F → Syn F (VarVal F)}
    (hr : ∀ x x' k k', VvEq x x' → VvEq k k' → ∀ j a b, VvEq a b → Same VvEq (round x k j a) (round x' k' j b))
    {xs xs' : List (Option F)} (hl : xs.length = xs'.length) (i : Nat) (a b : VarVal F) (h : VvEq a b) :
    Same VvEq (hashInput rounds round xs i a) (hashInput rounds round xs' i b) := by
  unfold VvEq at h
  unfold hashInput
  refine Same.bind Same.any (fun _ _ _ => ?_)
  refine Same.bind Same.newWit (fun x x' e => ?_)
  subst e
  refine Same.bind Same.newWit (fun k k' e => ?_)
  subst e
  refine Same.bind Same.newWit (fun v v' e => ?_)
  subst e
  refine Same.bind (Same.synUp (ρ := VvEq) rfl rfl (fun j a b hab => by apply hr <;> first | exact hab | rfl)) (fun u u' hu => ?_)
  unfold VvEq at hu
  refine Same.bind Same.any (fun _ _ _ => ?_)
  refine Same.bind Same.newWit (fun w w' e => ?_)
  subst e
  refine Same.bind (Same.enforce (by rw [hu]) rfl rfl) (fun _ _ _ => ?_)
  refine Same.bind Same.any (fun _ _ _ => ?_)
  refine Same.bind (Same.ite (by rw [hl]) (fun _ => Same.newInput) (fun _ => Same.newWit)) (fun z z' e => ?_)
  subst e
  exact Same.bind (Same.enforce (by rw [h]) rfl rfl) (fun _ _ _ => Same.pure rfl)

theorem mimc5HashCircuit_same {xs xs' : List (Option F)} (hl : xs.length = xs'.length) (key key' : Option F) (cs : List F) :
    Same (fun _ _ => True) (mimc5HashCircuit xs key cs) (mimc5HashCircuit xs' key' cs) := by
  unfold mimc5HashCircuit
  refine Same.ite Iff.rfl (fun _ => Same.any) (fun _ => ?_)
  refine Same.bind Same.newWit (fun v v' e => ?_)
  subst e
  exact Same.bind (Same.synUp (ρ := VvEq) hl rfl (hashInput_same (mimc5HashRound_same cs) hl)) (fun _ _ _ => Same.pure trivial)

theorem mimc7HashCircuit_same {xs xs' : List (Option F)} (hl : xs.length = xs'.length) (key key' : Option F) (cs : List F) :
    Same (fun _ _ => True) (mimc7HashCircuit xs key cs) (mimc7HashCircuit xs' key' cs) := by
  unfold mimc7HashCircuit
  refine Same.ite Iff.rfl (fun _ => Same.any) (fun _ => ?_)
  refine Same.bind Same.newWit (fun v v' e => ?_)
  subst e
  exact Same.bind (Same.synUp (ρ := VvEq) hl rfl (hashInput_same (mimc7HashRound_same cs) hl)) (fun _ _ _ => Same.pure trivial)

theorem powCircuit_same (g g' : Option F) (bits bits' : List (Option Nat)) :
    bits.length = bits'.length → Same (fun _ _ => True) (powCircuit g bits) (powCircuit g' bits') := by
  intro hl
  unfold powCircuit
  refine Same.ite (by rw [hl]) (fun _ => Same.any) (fun _ => ?_)
  refine Same.bind Same.newWit (fun v v' e => ?_)
  subst e
  refine Same.bind Same.newWit (fun w w' e => ?_)
  subst e
  refine Same.bind (Same.synUp (ρ := PowEq) rfl ⟨rfl, rfl⟩ (fun i a b h => ?_)) (fun _ _ _ => Same.pure trivial)
  obtain ⟨h1, h2⟩ := h
  unfold powRound
  refine Same.bind Same.any (fun _ _ _ => ?_)
  refine Same.bind Same.newWit (fun v v' e => ?_)
  subst e
  refine Same.bind (Same.enforce rfl rfl rfl) (fun _ _ _ => ?_)
  refine Same.bind Same.any (fun _ _ _ => ?_)
  refine Same.bind Same.newWit (fun v v' e => ?_)
  subst e
  refine Same.bind (Same.enforce (by rw [h2]) rfl rfl) (fun _ _ _ => ?_)
  refine Same.bind Same.any (fun _ _ _ => ?_)
  refine Same.bind Same.newWit (fun v v' e => ?_)
  subst e
  refine Same.bind (Same.enforce rfl rfl rfl) (fun _ _ _ => ?_)
  refine Same.bind Same.any (fun _ _ _ => ?_)
  refine Same.bind (Same.ite Iff.rfl (fun _ => Same.newInput) (fun _ => Same.newWit)) (fun z z' e => ?_)
  subst e
  refine Same.bind (Same.enforce (by rw [h1]) rfl rfl) (fun _ _ _ => ?_)
  refine Same.bind Same.newWit (fun v v' e => ?_)
  subst e
  exact Same.bind (Same.enforce (by rw [h2]) (by rw [h2]) rfl) (fun _ _ _ => Same.pure ⟨rfl, rfl⟩)

theorem equalCircuit_same (x1 x1' x2 x2' : Option F) (bits bits' : List (Option Nat)) (d : Nat) :
    bits.length = bits'.length → Same (fun _ _ => True) (equalCircuit x1 x2 bits d) (equalCircuit x1' x2' bits' d) := by
  intro hl
  unfold equalCircuit
  refine Same.ite (by rw [hl]) (fun _ => Same.any) (fun _ => ?_)
  refine Same.bind Same.newWit (fun v v' e => ?_)
  subst e
  refine Same.bind Same.newWit (fun w w' e => ?_)
  subst e
  refine Same.bind (Same.synUp (ρ := EqEq) rfl ⟨rfl, rfl⟩ (fun i a b h => ?_)) (fun _ _ _ => Same.pure trivial)
  obtain ⟨h1, h2⟩ := h
  unfold equalRound
  refine Same.bind Same.any (fun _ _ _ => ?_)
  refine Same.bind Same.newWit (fun v v' e => ?_)
  subst e
  refine Same.bind (Same.enforce rfl rfl rfl) (fun _ _ _ => ?_)
  refine Same.bind Same.any (fun _ _ _ => ?_)
  refine Same.bind Same.newWit (fun v v' e => ?_)
  subst e
  refine Same.bind (Same.enforce rfl (by rw [h1]) rfl) (fun _ _ _ => ?_)
  refine Same.bind Same.any (fun _ _ _ => ?_)
  refine Same.bind Same.newWit (fun v v' e => ?_)
  subst e
  refine Same.bind (Same.enforce (by rw [h2]) rfl rfl) (fun _ _ _ => ?_)
  refine Same.bind (Same.lift (fun a b h1 h2 => Except.ok.inj (h1.symm.trans h2))) (fun d d' e => ?_)
  subst e
  refine Same.bind (ρ := fun _ _ => True) (Same.ite Iff.rfl (fun _ => Same.bind Same.newInput (fun z z' e => ?_))
    (fun _ => Same.pure trivial)) (fun _ _ _ => ?_)
  · subst e
    exact Same.enforce rfl rfl rfl
  refine Same.bind (ρ := fun _ _ => True) (Same.ite Iff.rfl (fun _ => Same.bind Same.newInput (fun z z' e => ?_))
    (fun _ => Same.pure trivial)) (fun _ _ _ => ?_)
  · subst e
    exact Same.enforce rfl rfl rfl
  refine Same.bind Same.newWit (fun v v' e => ?_)
  subst e
  exact Same.bind (Same.enforce (by rw [h1]) rfl rfl) (fun _ _ _ => Same.pure ⟨rfl, rfl⟩)

/-! ### The space circuit -/

theorem bitsOpt_length {q : Nat} {v : Option (ZMod q)} {len : Nat} {bits : List (Option Bool)}
    (h : bitsOpt v len = .ok bits) : bits.length = len := by
  unfold bitsOpt at h
  cases v with
  | none => cases h; simp
  | some x =>
    obtain ⟨l, h1, h2⟩ := bind_eq_ok.mp h
    cases h2
    unfold slice! at h1
    split at h1
    · rename_i hc
      cases h1
      simp only [List.length_map, List.length_take, List.length_drop, bitsOf_length] at hc ⊢
      omega
    · cases h1

theorem bitStep_same (b b' : Option Bool) (a c : EqSt F) (h : EqEq a c) : Same EqEq (bitStep b a) (bitStep b' c) := by
  obtain ⟨h1, h2⟩ := h
  unfold bitStep
  refine Same.bind Same.newWit (fun v v' e => ?_)
  subst e
  refine Same.bind (Same.enforce rfl rfl rfl) (fun _ _ _ => ?_)
  refine Same.bind Same.any (fun _ _ _ => ?_)
  refine Same.bind Same.newWit (fun v v' e => ?_)
  subst e
  refine Same.bind (Same.enforce rfl (by rw [h1]) (by rw [h2])) (fun _ _ _ => ?_)
  refine Same.bind Same.newWit (fun v v' e => ?_)
  subst e
  exact Same.bind (Same.enforce (by rw [h1]) rfl rfl) (fun _ _ _ => Same.pure ⟨rfl, rfl⟩)

theorem ynBlock_same {q : Nat} (n : Nat) (v v' : Option (ZMod q)) (y : Var) :
    Same (fun _ _ => True) (ynBlock n v y) (ynBlock n v' y) := by
  unfold ynBlock
  refine Same.bind (Same.lift (ρ := fun a b => a.length = n ∧ b.length = n)
    (fun a b h1 h2 => ⟨bitsOpt_length h1, bitsOpt_length h2⟩)) (fun bits bits' hb => ?_)
  obtain ⟨hb, hb'⟩ := hb
  refine Same.bind Same.newWit (fun v v' e => ?_)
  subst e
  refine Same.bind Same.newWit (fun v v' e => ?_)
  subst e
  refine Same.bind (Same.synUp (ρ := EqEq) (by rw [hb, hb']) ⟨rfl, rfl⟩ (fun i a b h => ?_)) (fun _ _ _ => Same.pure trivial)
  refine Same.bind Same.any (fun _ _ _ => ?_)
  refine Same.bind (bitStep_same _ _ _ _ h) (fun st st' h => ?_)
  refine Same.bind (ρ := fun _ _ => True) (Same.ite (by rw [hb, hb']) (fun _ => Same.bind Same.newInput (fun z z' e => ?_))
    (fun _ => Same.pure trivial)) (fun _ _ _ => Same.pure h)
  subst e
  refine Same.bind (Same.enforce rfl rfl (by rw [h.2])) (fun _ _ _ => ?_)
  exact Same.enforce (by rw [h.2]) rfl rfl

theorem yBlock_same {q : Nat} (n ySize : Nat) (yns yns' : List (Option (ZMod q))) (i : Nat) (v v' : Option (ZMod q)) :
    Same (fun _ _ => True) (yBlock n ySize yns i v) (yBlock n ySize yns' i v') := by
  unfold yBlock
  refine Same.bind (Same.lift (ρ := fun a b => a.length = ySize ∧ b.length = ySize)
    (fun a b h1 h2 => ⟨bitsOpt_length h1, bitsOpt_length h2⟩)) (fun bits bits' hb => ?_)
  obtain ⟨hb, hb'⟩ := hb
  refine Same.bind Same.newWit (fun v v' e => ?_)
  subst e
  refine Same.bind Same.newWit (fun v v' e => ?_)
  subst e
  refine Same.bind (Same.synUp (ρ := EqEq) (by rw [hb, hb']) ⟨rfl, rfl⟩ (fun i a b h => ?_)) (fun _ _ _ => Same.pure trivial)
  refine Same.bind Same.any (fun _ _ _ => ?_)
  refine Same.bind (bitStep_same _ _ _ _ h) (fun st st' h => ?_)
  refine Same.bind (ρ := fun _ _ => True) (Same.ite (by rw [hb, hb']) (fun _ => Same.bind Same.newWit (fun z z' e => ?_))
    (fun _ => Same.pure trivial)) (fun _ _ _ => ?_)
  · subst e
    exact Same.enforce (by rw [h.2]) rfl rfl
  refine Same.bind (ρ := fun _ _ => True) (Same.ite Iff.rfl (fun _ => Same.bind Same.any (fun z z' e => ?_))
    (fun _ => Same.pure trivial)) (fun _ _ _ => Same.pure h)
  rw [h.2]
  exact ynBlock_same n z z' _

theorem spaceInput_same {q : Nat} (n ySize : Nat) (kv kv' : Option (ZMod q)) (key : Var) (mv mv' : Option (ZMod q))
    (xs xs' : List (Option (ZMod q))) (dcs : List (ZMod q)) (yns yns' : List (Option (ZMod q))) (i : Nat) :
    Same (fun _ _ => True) (spaceInput n ySize kv key mv xs dcs yns i) (spaceInput n ySize kv' key mv' xs' dcs yns' i) := by
  unfold spaceInput
  refine Same.bind Same.any (fun _ _ _ => ?_)
  refine Same.bind Same.newWit (fun v v' e => ?_)
  subst e
  refine Same.bind Same.any (fun _ _ _ => ?_)
  refine Same.bind Same.newWit (fun v v' e => ?_)
  subst e
  refine Same.bind (Same.enforce rfl rfl rfl) (fun _ _ _ => ?_)
  refine Same.bind Same.newWit (fun v v' e => ?_)
  subst e
  refine Same.bind (Same.synUp (ρ := DfEq) rfl ⟨rfl, rfl⟩ (fun j a b h => ?_)) (fun _ _ _ => Same.pure trivial)
  refine Same.bind (spaceDfRound_same dcs j a b h) (fun st st' h => ?_)
  exact Same.bind (ρ := fun _ _ => True) (Same.ite Iff.rfl (fun _ => yBlock_same _ _ _ _ _ _ _) (fun _ => Same.pure trivial))
    (fun _ _ _ => Same.pure h)

theorem spaceCircuit_same {q : Nat} (n ySize : Nat) (kv kv' mv mv' : Option (ZMod q)) {xs xs' : List (Option (ZMod q))}
    (hl : xs.length = xs'.length) (dcs : List (ZMod q)) (yns yns' : List (Option (ZMod q))) (hcs : List (ZMod q)) :
    Same (fun _ _ => True) (spaceCircuit n ySize kv xs mv dcs yns hcs) (spaceCircuit n ySize kv' xs' mv' dcs yns' hcs) := by
  unfold spaceCircuit
  refine Same.ite Iff.rfl (fun _ => Same.any) (fun _ => Same.ite Iff.rfl (fun _ => Same.any) (fun _ => ?_))
  refine Same.bind Same.newInput (fun v v' e => ?_)
  subst e
  refine Same.bind Same.newInput (fun w w' e => ?_)
  refine Same.bind (ρ := fun _ _ => True) (Same.synUp hl trivial (fun i a b _ => spaceInput_same _ _ _ _ _ _ _ _ _ _ _ _ _)) (fun _ _ _ => ?_)
  refine Same.bind Same.newWit (fun v v' e => ?_)
  subst e
  exact Same.bind (Same.synUp (ρ := VvEq) hl rfl (hashInput_same (mimc5HashRound_same hcs) hl)) (fun _ _ _ => Same.pure trivial)

end PoS
