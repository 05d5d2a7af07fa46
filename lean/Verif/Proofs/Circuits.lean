import Verif.Model.Circuits
import Verif.Proofs.R1cs
import Verif.Proofs.Convert
import Mathlib.Tactic.Ring
import Mathlib.Tactic.LinearCombination

/-
Extension (`Run`) and soundness (`Snd`) of the circuits' building blocks.
-/

namespace PoS

set_option linter.unusedSectionVars false

variable {F : Type} [CommRing F]

/-! ### Feistel rounds -/

/-- Post-condition of a Feistel round. -/
def DfPost (l r : F) (st : DfSt F) (s : CS F) (a : List F × List F) : Prop :=
  At s a st.xl l ∧ At s a st.xr r ∧ st.xlv = opt s.setup l ∧ st.xrv = opt s.setup r

theorem DfPost.mono {l r : F} {st : DfSt F} {s s' : CS F} {a a' : List F × List F} {p : List F}
    (h : DfPost l r st s a) (o : Out s a s' a' p) : DfPost l r st s' a' :=
  ⟨o.mono _ _ h.1, o.mono _ _ h.2.1, by rw [o.mode]; exact h.2.2.1, by rw [o.mode]; exact h.2.2.2⟩

theorem mimc5DfRound_run {s : CS F} {a : List F × List F} (g : Good s a) {cs : List F} {c : F} {i : Nat}
    (hc : at! cs i = .ok c) {st : DfSt F} {l r : F} (h : DfPost l r st s a) :
    Run (mimc5DfRound cs i st) s a (if i + 1 = MIMC5_DF_ROUNDS then [(l + c) ^ 5 + r] else [])
      (fun st' s' a' => DfPost ((l + c) ^ 5 + r) l st' s' a' ∧
        (i + 1 = MIMC5_DF_ROUNDS → st'.xl = .inst a.1.length)) := by
  obtain ⟨hl, hr, vl, vr⟩ := h
  unfold mimc5DfRound
  refine Run.lift_bind hc ?_
  refine Run.bind0 (Run.newWit g ((l + c) * (l + c)) (fun h => by rw [vl, opt_map, opt_some h])) ?_
  intro tmp1 s1 a1 o1 h1
  refine Run.enforce_bind o1.good (.cons (o1.mono _ _ hl) (.cons (at_one _ _) .nil))
    (.cons (o1.mono _ _ hl) (.cons (at_one _ _) .nil)) (.cons h1 .nil) (by ring) ?_
  intro s2 o2
  replace h1 := o2.mono _ _ h1
  replace o2 := o1.trans o2
  refine Run.bind0 (Run.newWit o2.good ((l + c) * (l + c) * ((l + c) * (l + c)))
    (fun h => by rw [vl, opt_map, opt_map, opt_some (by rw [← o2.mode]; exact h)])) ?_
  intro tmp2 s3 a3 o3 h3
  refine Run.enforce_bind o3.good (.cons (o3.mono _ _ h1) .nil) (.cons (o3.mono _ _ h1) .nil)
    (.cons h3 .nil) (by ring) ?_
  intro s4 o4
  replace h3 := o4.mono _ _ h3
  replace o4 := o2.trans (o3.trans o4)
  refine Run.lift_bind (r := opt s.setup ((l + c) ^ 5 + r)) ?_ ?_
  · rw [vl, vr]
    refine mapOpt_opt (fun h => ?_)
    rw [opt_map, opt_map, opt_some h, opt_some h]
    simp only [unwrap_some, bind_ok, pure_eq_ok]
    congr 1
    ring
  · refine Run.bind (Run.newVar o4.good ((l + c) ^ 5 + r) (fun h => opt_some (by rw [← o4.mode]; exact h)))
      (List.append_nil _).symm ?_
    rintro new s5 a5 o5 ⟨h5, hv⟩
    refine Run.enforce_bind o5.good (.cons (o5.mono _ _ h3) .nil)
      (.cons (o5.mono _ _ (o4.mono _ _ hl)) (.cons (at_one _ _) .nil))
      (.cons h5 (.cons (o5.mono _ _ (o4.mono _ _ hr)) .nil)) (by ring) ?_
    intro s6 o6
    have hm := (o4.trans (o5.trans o6)).mode
    refine Run.pure o6.good _ ⟨⟨o6.mono _ _ h5, o6.mono _ _ (o5.mono _ _ (o4.mono _ _ hl)), by rw [hm],
      by rw [hm]; exact vl⟩, fun hi => ?_⟩
    rw [hv hi, o4.pubs]; simp

theorem spaceDfRound_run {s : CS F} {a : List F × List F} (g : Good s a) {cs : List F} {c : F} {i : Nat}
    (hc : at! cs i = .ok c) {st : DfSt F} {l r : F} (h : DfPost l r st s a) :
    Run (spaceDfRound cs i st) s a []
      (fun st' s' a' => DfPost ((l + c) ^ 5 + r) l st' s' a') := by
  obtain ⟨hl, hr, vl, vr⟩ := h
  unfold spaceDfRound
  refine Run.lift_bind hc ?_
  refine Run.bind0 (Run.newWit g ((l + c) * (l + c)) (fun h => by rw [vl, opt_map, opt_some h])) ?_
  intro tmp1 s1 a1 o1 h1
  refine Run.enforce_bind o1.good (.cons (o1.mono _ _ hl) (.cons (at_one _ _) .nil))
    (.cons (o1.mono _ _ hl) (.cons (at_one _ _) .nil)) (.cons h1 .nil) (by ring) ?_
  intro s2 o2
  replace h1 := o2.mono _ _ h1
  replace o2 := o1.trans o2
  refine Run.bind0 (Run.newWit o2.good ((l + c) * (l + c) * ((l + c) * (l + c)))
    (fun h => by rw [vl, opt_map, opt_map, opt_some (by rw [← o2.mode]; exact h)])) ?_
  intro tmp2 s3 a3 o3 h3
  refine Run.enforce_bind o3.good (.cons (o3.mono _ _ h1) .nil) (.cons (o3.mono _ _ h1) .nil)
    (.cons h3 .nil) (by ring) ?_
  intro s4 o4
  replace h3 := o4.mono _ _ h3
  replace o4 := o2.trans (o3.trans o4)
  refine Run.lift_bind (r := opt s.setup ((l + c) ^ 5 + r)) ?_ ?_
  · rw [vl, vr]
    refine mapOpt_opt (fun h => ?_)
    rw [opt_map, opt_map, opt_some h, opt_some h]
    simp only [unwrap_some, bind_ok, pure_eq_ok]
    congr 1
    ring
  · refine Run.bind0 (Run.newWit o4.good ((l + c) ^ 5 + r) (fun h => opt_some (by rw [← o4.mode]; exact h))) ?_
    intro new s5 a5 o5 h5
    refine Run.enforce_bind o5.good (.cons (o5.mono _ _ h3) .nil)
      (.cons (o5.mono _ _ (o4.mono _ _ hl)) (.cons (at_one _ _) .nil))
      (.cons h5 (.cons (o5.mono _ _ (o4.mono _ _ hr)) .nil)) (by ring) ?_
    intro s6 o6
    have hm := (o4.trans (o5.trans o6)).mode
    exact Run.pure o6.good _ ⟨o6.mono _ _ h5, o6.mono _ _ (o5.mono _ _ (o4.mono _ _ hl)), by rw [hm],
      by rw [hm]; exact vl⟩

theorem mimc3DfRound_run {s : CS F} {a : List F × List F} (g : Good s a) {cs : List F} {c : F} {i : Nat}
    (hc : at! cs i = .ok c) {st : DfSt F} {l r : F} (h : DfPost l r st s a) :
    Run (mimc3DfRound cs i st) s a (if i + 1 = MIMC3_DF_ROUNDS then [(l + c) ^ 3 + r] else [])
      (fun st' s' a' => DfPost ((l + c) ^ 3 + r) l st' s' a' ∧
        (i + 1 = MIMC3_DF_ROUNDS → st'.xl = .inst a.1.length)) := by
  obtain ⟨hl, hr, vl, vr⟩ := h
  unfold mimc3DfRound
  refine Run.lift_bind hc ?_
  refine Run.bind0 (Run.newWit g ((l + c) * (l + c)) (fun h => by rw [vl, opt_map, opt_some h])) ?_
  intro tmp1 s1 a1 o1 h1
  refine Run.enforce_bind o1.good (.cons (o1.mono _ _ hl) (.cons (at_one _ _) .nil))
    (.cons (o1.mono _ _ hl) (.cons (at_one _ _) .nil)) (.cons h1 .nil) (by ring) ?_
  intro s4 o4
  have h3 := o4.mono _ _ h1
  replace o4 := o1.trans o4
  refine Run.lift_bind (r := opt s.setup ((l + c) ^ 3 + r)) ?_ ?_
  · rw [vl, vr]
    refine mapOpt_opt (fun h => ?_)
    rw [opt_map, opt_some h, opt_some h]
    simp only [unwrap_some, bind_ok, pure_eq_ok]
    congr 1
    ring
  · refine Run.bind (Run.newVar o4.good ((l + c) ^ 3 + r) (fun h => opt_some (by rw [← o4.mode]; exact h)))
      (List.append_nil _).symm ?_
    rintro new s5 a5 o5 ⟨h5, hv⟩
    refine Run.enforce_bind o5.good (.cons (o5.mono _ _ h3) .nil)
      (.cons (o5.mono _ _ (o4.mono _ _ hl)) (.cons (at_one _ _) .nil))
      (.cons h5 (.cons (o5.mono _ _ (o4.mono _ _ hr)) .nil)) (by ring) ?_
    intro s6 o6
    have hm := (o4.trans (o5.trans o6)).mode
    refine Run.pure o6.good _ ⟨⟨o6.mono _ _ h5, o6.mono _ _ (o5.mono _ _ (o4.mono _ _ hl)), by rw [hm],
      by rw [hm]; exact vl⟩, fun hi => ?_⟩
    rw [hv hi, o4.pubs]; simp

/-! ### Hash rounds -/

/-- The value `h` of the hash loop after `j` rounds with exponent `e`. -/
def hashSeq (e : Nat) (cs : List F) (x k : F) : Nat → F
  | 0 => 0
  | j + 1 => (if j = 0 then x + k else hashSeq e cs x k j + k + cs[j]?.getD 0) ^ e

/-- A variable of known value, whose optional value is the one of the mode. -/
def VAt (s : CS F) (a : List F × List F) (v : VarVal F) (x : F) : Prop := At s a v.var x ∧ v.val = opt s.setup x

theorem VAt.mono {s s' : CS F} {a a' : List F × List F} {p : List F} {v : VarVal F} {x : F} (h : VAt s a v x)
    (o : Out s a s' a' p) : VAt s' a' v x := ⟨o.mono _ _ h.1, by rw [o.mode]; exact h.2⟩

theorem hashT_run {s : CS F} {a : List F × List F} (g : Good s a) {cs : List F} {x k : F} {xIn key : VarVal F}
    (hx : VAt s a xIn x) (hk : VAt s a key k) (j : Nat) (hj : j < cs.length) {h : VarVal F} {hv : F}
    (hh : 0 < j → VAt s a h hv) :
    Run (hashT cs xIn key j h) s a []
      (fun t s' a' => VAt s' a' t (if j = 0 then x + k else hv + k + cs[j]?.getD 0)) := by
  unfold hashT
  by_cases h0 : j = 0
  · simp only [if_pos h0]
    refine Run.lift_bind (r := opt s.setup (x + k)) ?_ ?_
    · rw [hx.2, hk.2]
      refine mapOpt_opt (fun h => ?_)
      rw [opt_some h]; rfl
    · refine Run.bind0 (Run.newWit g (x + k) (fun h => opt_some h)) ?_
      intro t s1 a1 o1 h1
      refine Run.enforce_bind o1.good (.cons (o1.mono _ _ hx.1) (.cons (o1.mono _ _ hk.1) .nil))
        (.cons (at_one _ _) .nil) (.cons h1 .nil) (by ring) ?_
      intro s2 o2
      exact Run.pure o2.good _ ⟨o2.mono _ _ h1, by rw [o2.mode, o1.mode]⟩
  · simp only [if_neg h0]
    have hh := hh (by omega)
    have hc : cs[j]?.getD 0 = cs[j] := by rw [List.getElem?_eq_getElem hj]; rfl
    rw [hc]
    refine Run.lift_bind (at!_of_lt hj) ?_
    refine Run.lift_bind (r := opt s.setup (hv + k + cs[j])) ?_ ?_
    · rw [hh.2, hk.2]
      refine mapOpt_opt (fun h => ?_)
      rw [opt_some h]; rfl
    · refine Run.bind0 (Run.newWit g (hv + k + cs[j]) (fun h => opt_some h)) ?_
      intro t s1 a1 o1 h1
      refine Run.enforce_bind o1.good (.cons (o1.mono _ _ hh.1) (.cons (o1.mono _ _ hk.1) (.cons (at_one _ _) .nil)))
        (.cons (at_one _ _) .nil) (.cons h1 .nil) (by ring) ?_
      intro s2 o2
      exact Run.pure o2.good _ ⟨o2.mono _ _ h1, by rw [o2.mode, o1.mode]⟩

/-- A new variable holding the square of another one. -/
theorem run_square_bind {β : Type} {s : CS F} {a : List F × List F} {t : VarVal F} {x : F} (g : Good s a) (h : VAt s a t x)
    {f : Var → Syn F β} {p : List F} {Q : β → CS F → List F × List F → Prop}
    (hf : ∀ v s' a', Out s a s' a' [] → VAt s' a' ⟨v, t.val.map (fun e => e * e)⟩ (x * x) → Run (f v) s' a' p Q) :
    Run (newWit (t.val.map (fun e => e * e)) >>= fun v =>
      enforce [(1, t.var)] [(1, t.var)] [(1, v)] >>= fun _ => f v) s a p Q := by
  refine Run.bind0 (Run.newWit g (x * x) (fun hs => by rw [h.2, opt_map, opt_some hs])) ?_
  intro v s1 a1 o1 h1
  refine Run.enforce_bind o1.good (.cons (o1.mono _ _ h.1) .nil) (.cons (o1.mono _ _ h.1) .nil) (.cons h1 .nil) (by ring) ?_
  intro s2 o2
  refine hf v s2 _ (o1.trans o2) ⟨o2.mono _ _ h1, ?_⟩
  simp only
  rw [h.2, opt_map, o2.mode, o1.mode]

/-- A new variable holding the product of two others. -/
theorem run_product_bind {β : Type} {s : CS F} {a : List F × List F} {t u : VarVal F} {x y : F} (g : Good s a)
    (h : VAt s a t x) (hu : VAt s a u y)
    {f : Option F → Var → Syn F β} {p : List F} {Q : β → CS F → List F × List F → Prop}
    (hf : ∀ o v s' a', Out s a s' a' [] → VAt s' a' ⟨v, o⟩ (x * y) → Run (f o v) s' a' p Q) :
    Run (PoS.lift (mapOpt t.val (fun e => do
        let x ← unwrap! u.val
        pure (e * x))) >>= fun o => newWit o >>= fun v =>
      enforce [(1, t.var)] [(1, u.var)] [(1, v)] >>= fun _ => f o v) s a p Q := by
  refine Run.lift_bind (r := opt s.setup (x * y)) ?_ ?_
  · rw [h.2, hu.2]
    exact mapOpt_opt (fun hs => by rw [opt_some hs]; rfl)
  · refine Run.bind0 (Run.newWit g (x * y) (fun hs => opt_some hs)) ?_
    intro v s1 a1 o1 h1
    refine Run.enforce_bind o1.good (.cons (o1.mono _ _ h.1) .nil) (.cons (o1.mono _ _ hu.1) .nil) (.cons h1 .nil) (by ring) ?_
    intro s2 o2
    exact hf _ v s2 _ (o1.trans o2) ⟨o2.mono _ _ h1, by rw [o2.mode, o1.mode]⟩

/-- What a hash round of exponent `e` does. -/
def HashRoundSpec (e : Nat) (cs : List F) (round : VarVal F → VarVal F → Nat → VarVal F → Syn F (VarVal F)) : Prop :=
  ∀ (s : CS F) (a : List F × List F) (x k : F) (xIn key : VarVal F) (j : Nat) (h : VarVal F), Good s a →
    VAt s a xIn x → VAt s a key k → j < cs.length → (0 < j → VAt s a h (hashSeq e cs x k j)) →
    Run (round xIn key j h) s a [] (fun h' s' a' => VAt s' a' h' (hashSeq e cs x k (j + 1)))

theorem mimc5HashRound_run (cs : List F) : HashRoundSpec 5 cs (mimc5HashRound cs) := by
  intro s a x k xIn key j h g hx hk hj hh
  unfold mimc5HashRound
  refine Run.bind0 (hashT_run g hx hk j hj hh) ?_
  intro t s1 a1 o1 h1
  refine run_square_bind o1.good h1 ?_
  intro t2 s2 a2 o2 h2
  refine run_square_bind o2.good h2 ?_
  intro t4 s3 a3 o3 h3
  refine run_product_bind o3.good h3 ((h1.mono o2).mono o3) ?_
  intro o v s4 a4 o4 h4
  refine Run.pure o4.good _ ?_
  rw [hashSeq]
  have e : ∀ z : F, z * z * (z * z) * z = z ^ 5 := fun z => by ring
  rw [e] at h4
  exact h4

theorem mimc7HashRound_run (cs : List F) : HashRoundSpec 7 cs (mimc7HashRound cs) := by
  intro s a x k xIn key j h g hx hk hj hh
  unfold mimc7HashRound
  refine Run.bind0 (hashT_run g hx hk j hj hh) ?_
  intro t s1 a1 o1 h1
  refine run_square_bind o1.good h1 ?_
  intro t2 s2 a2 o2 h2
  refine run_square_bind o2.good h2 ?_
  intro t4 s3 a3 o3 h3
  refine run_product_bind o3.good h3 (h2.mono o3) ?_
  intro o6 t6 s4 a4 o4 h4
  refine run_product_bind o4.good h4 (((h1.mono o2).mono o3).mono o4) ?_
  intro o v s5 a5 o5 h5
  refine Run.pure o5.good _ ?_
  rw [hashSeq]
  have e : ∀ z : F, z * z * (z * z) * (z * z) * z = z ^ 7 := fun z => by ring
  rw [e] at h5
  exact h5

/-- One input of a hash circuit; `k` is the value of the inner key, in setup mode arbitrary. -/
theorem hashInput_run {e rounds : Nat} {cs : List F} {round : VarVal F → VarVal F → Nat → VarVal F → Syn F (VarVal F)}
    (hr : HashRoundSpec e cs round) (h0 : 0 < rounds) (hcs : rounds ≤ cs.length) {s : CS F} {a : List F × List F}
    (g : Good s a) {xs : List (Option F)} {i : Nat} {x k ρ : F} (hx : at! xs i = .ok (opt s.setup x))
    (hk : s.setup = false → k = ρ) {res : VarVal F} (hres : VAt s a res ρ) :
    Run (hashInput rounds round xs i res) s a
      (if i + 1 = xs.length then [ρ + x + (hashSeq e cs x k rounds + k)] else [])
      (fun res' s' a' => VAt s' a' res' (ρ + x + (hashSeq e cs x k rounds + k)) ∧ At s' a' (.wit s.nWit) x) := by
  have hkv : res.val = opt s.setup k := by
    rw [hres.2]
    cases hs : s.setup with
    | true => rfl
    | false => rw [hk hs]
  unfold hashInput
  refine Run.lift_bind hx ?_
  refine Run.bind0 (Run.newWit_pos g x (fun h => opt_some h)) ?_
  rintro xv s1 a1 o1 ⟨h1, hpos⟩
  refine Run.bind0 (Run.newWit o1.good k (fun h => by rw [hkv]; exact opt_some (by rw [← o1.mode]; exact h))) ?_
  intro kv s2 a2 o2 h2
  refine Run.bind0 (Run.newWit o2.good 0 (fun _ => rfl)) ?_
  intro hv s3 a3 o3 h3
  have m3 := (o1.trans (o2.trans o3)).mode
  have hx3 : VAt s3 a3 ⟨xv, opt s.setup x⟩ x := ⟨o3.mono _ _ (o2.mono _ _ h1), by rw [m3]⟩
  have hk3 : VAt s3 a3 ⟨kv, res.val⟩ k := ⟨o3.mono _ _ h2, by rw [m3]; exact hkv⟩
  have hloop := Run.synUp (n := rounds) (f := round ⟨xv, opt s.setup x⟩ ⟨kv, res.val⟩) (t := ⟨hv, some 0⟩) o3.good
    (fun _ => [])
    (fun j h s' a' => (0 < j → VAt s' a' h (hashSeq e cs x k j)))
    (fun h => absurd h (by omega))
    (fun j hj t s' a' o ht => (hr s' a' x k _ _ j t o.good (hx3.mono o) (hk3.mono o) (by omega) ht).weaken
      (fun _ _ _ _ h _ => h))
  have hnil : (List.range rounds).flatMap (fun _ => ([] : List F)) = [] := by simp
  rw [hnil] at hloop
  refine Run.bind0 hloop ?_
  intro h s4 a4 o4 h4
  replace h4 := h4 h0
  have m4 := o4.mode
  refine Run.lift_bind (r := opt s.setup (hashSeq e cs x k rounds + k)) ?_ ?_
  · rw [h4.2, hkv, m4, m3]
    exact mapOpt_opt (fun hs => by rw [opt_some hs]; rfl)
  · refine Run.bind0 (Run.newWit o4.good (hashSeq e cs x k rounds + k)
      (fun hs => opt_some (by rw [← m3, ← m4]; exact hs))) ?_
    intro nh s5 a5 o5 h5
    refine Run.enforce_bind o5.good (.cons (o5.mono _ _ h4.1) (.cons (o5.mono _ _ (hk3.mono o4).1) .nil))
      (.cons (at_one _ _) .nil) (.cons h5 .nil) (by ring) ?_
    intro s6 o6
    have m6 : s6.setup = s.setup := by rw [o6.mode, o5.mode, m4, m3]
    refine Run.lift_bind (r := opt s.setup (ρ + x + (hashSeq e cs x k rounds + k))) ?_ ?_
    · rw [hres.2]
      exact mapOpt_opt (fun hs => by rw [opt_some hs, opt_some hs]; rfl)
    · refine Run.bind (Run.newVar o6.good (ρ + x + (hashSeq e cs x k rounds + k))
        (fun hs => opt_some (by rw [← m6]; exact hs))) (List.append_nil _).symm ?_
      rintro v s7 a7 o7 ⟨h7, -⟩
      have oall := o4.trans (o5.trans (o6.trans o7))
      have o3' := o1.trans (o2.trans o3)
      refine Run.enforce_bind o7.good
        (.cons (oall.mono _ _ (o3'.mono _ _ hres.1)) (.cons (oall.mono _ _ hx3.1) (.cons (o7.mono _ _ (o6.mono _ _ h5)) .nil)))
        (.cons (at_one _ _) .nil) (.cons h7 .nil) (by ring) ?_
      intro s8 o8
      exact Run.pure o8.good _ ⟨⟨o8.mono _ _ h7, by rw [o8.mode, o7.mode, m6]⟩,
        hpos ▸ o8.mono _ _ (oall.mono _ _ hx3.1)⟩

/-- The accumulator of the hash circuits after `i` inputs. -/
def resSeq (H : F → F → F) (x k : Nat → F) (r : F) : Nat → F
  | 0 => r
  | i + 1 => resSeq H x k r i + x i + H (x i) (k i)

theorem flatMap_single {β : Type} (n N : Nat) (x : β) :
    (List.range N).flatMap (fun k => if k + 1 = n then [x] else []) = if 0 < n ∧ n ≤ N then [x] else [] := by
  induction N with
  | zero => rw [if_neg (by omega)]; rfl
  | succ N ih =>
    rw [List.range_succ, List.flatMap_append, ih]
    simp only [List.flatMap_cons, List.flatMap_nil, List.append_nil]
    by_cases h : N + 1 = n
    · rw [if_neg (by omega), if_pos h, if_pos (by omega)]; rfl
    · by_cases h2 : 0 < n ∧ n ≤ N
      · rw [if_pos h2, if_neg h, if_pos (by omega)]; rfl
      · rw [if_neg h2, if_neg h, if_neg (by omega)]; rfl

/-- The loop over the inputs of a hash circuit. -/
theorem hashLoop_run {e rounds : Nat} {cs : List F} {round : VarVal F → VarVal F → Nat → VarVal F → Syn F (VarVal F)}
    (hr : HashRoundSpec e cs round) (h0 : 0 < rounds) (hcs : rounds ≤ cs.length) {s : CS F} {a : List F × List F}
    (g : Good s a) {xs : List (Option F)} {x k : Nat → F} {r : F}
    (hx : ∀ i < xs.length, at! xs i = .ok (opt s.setup (x i)))
    (hk : s.setup = false → ∀ i, k i = resSeq (fun x k => hashSeq e cs x k rounds + k) x k r i) {res : VarVal F}
    (hres : VAt s a res r) :
    Run (synUp xs.length (hashInput rounds round xs) res) s a
      (if 0 < xs.length then [resSeq (fun x k => hashSeq e cs x k rounds + k) x k r xs.length] else [])
      (fun res' s' a' => VAt s' a' res' (resSeq (fun x k => hashSeq e cs x k rounds + k) x k r xs.length)) := by
  set H : F → F → F := fun x k => hashSeq e cs x k rounds + k with hH
  have hloop := Run.synUp (n := xs.length) (f := hashInput rounds round xs) (t := res) g
    (fun i => if i + 1 = xs.length then [resSeq H x k r (i + 1)] else [])
    (fun i h s' a' => VAt s' a' h (resSeq H x k r i)) hres
    (fun i hi t s' a' o ht => by
      have := hashInput_run hr h0 hcs o.good (xs := xs) (i := i) (x := x i) (k := k i) (ρ := resSeq H x k r i)
        (by rw [o.mode]; exact hx i hi) (fun hs => hk (by rw [← o.mode]; exact hs) i) ht
      exact this.weaken (fun _ _ _ _ h => h.1))
  have hpub : (List.range xs.length).flatMap (fun i => if i + 1 = xs.length then [resSeq H x k r (i + 1)] else []) =
      if 0 < xs.length then [resSeq H x k r xs.length] else [] := by
    rw [show (fun i => if i + 1 = xs.length then [resSeq H x k r (i + 1)] else []) =
        (fun i => if i + 1 = xs.length then [resSeq H x k r xs.length] else []) by
      funext i
      by_cases h : i + 1 = xs.length
      · rw [if_pos h, if_pos h, h]
      · rw [if_neg h, if_neg h], flatMap_single]
    simp
  rw [hpub] at hloop
  exact hloop

/-! ### Bits -/

/-- The number with the bits `β 0, …, β (k-1)`. -/
def bnat (β : Nat → Bool) : Nat → Nat
  | 0 => 0
  | k + 1 => bnat β k + if β k then 2 ^ k else 0

theorem bnat_lt (β : Nat → Bool) (k : Nat) : bnat β k < 2 ^ k := by
  induction k with
  | zero => simp [bnat]
  | succ k ih => rw [bnat, Nat.pow_succ]; split <;> omega

theorem bnat_false (k : Nat) : bnat (fun _ => false) k = 0 := by
  induction k with
  | zero => rfl
  | succ k ih => rw [bnat, ih]; rfl

theorem bnat_congr {β γ : Nat → Bool} {k : Nat} (h : ∀ i < k, β i = γ i) : bnat β k = bnat γ k := by
  induction k with
  | zero => rfl
  | succ k ih => rw [bnat, bnat, ih (fun i hi => h i (by omega)), h k (by omega)]

theorem bnat_testBit (v k : Nat) : bnat v.testBit k = v % 2 ^ k := by
  induction k with
  | zero => simp [bnat, Nat.mod_one]
  | succ k ih =>
    rw [bnat, ih, Nat.pow_succ, Nat.mod_mul, Nat.testBit_eq_decide_div_mod_eq]
    have h2 : v / 2 ^ k % 2 < 2 := Nat.mod_lt _ (by norm_num)
    by_cases h : v / 2 ^ k % 2 = 1
    · simp [h]
    · have h0 : v / 2 ^ k % 2 = 0 := by omega
      simp [h0]

theorem bitsOf_getElem? (m x k : Nat) (h : k < m) : (bitsOf m x)[k]? = some (x.testBit k) := by
  induction m generalizing x k with
  | zero => omega
  | succ m ih =>
    cases k with
    | zero =>
      rw [bitsOf, List.getElem?_cons_zero, Nat.testBit_zero]
      by_cases hx : x % 2 = 1 <;> simp [hx]
    | succ k => rw [bitsOf, List.getElem?_cons_succ, ih _ _ (by omega), Nat.testBit_succ]

/-- A bit as a field element. -/
def bitF (b : Bool) : F := if b then 1 else 0

theorem bitF_sq (b : Bool) : (bitF b : F) * bitF b = bitF b := by cases b <;> simp [bitF]

/-- Loop state of the bit loops: power of two and sum so far, with their values when proving. -/
def EqPost (t y : F) (st : EqSt F) (s : CS F) (a : List F × List F) : Prop :=
  At s a st.two.var t ∧ At s a st.x.var y ∧ (s.setup = false → st.two.val = some t ∧ st.x.val = some y)

theorem EqPost.mono {t y : F} {st : EqSt F} {s s' : CS F} {a a' : List F × List F} {p : List F}
    (h : EqPost t y st s a) (o : Out s a s' a' p) : EqPost t y st s' a' :=
  ⟨o.mono _ _ h.1, o.mono _ _ h.2.1, fun hs => h.2.2 (by rw [← o.mode]; exact hs)⟩

theorem bitStep_run {s : CS F} {a : List F × List F} (g : Good s a) {b : Option Bool} {β : Bool}
    (hb : (boolVal b : Option F) = opt s.setup (bitF β)) {st : EqSt F} {t y : F} (h : EqPost t y st s a) :
    Run (bitStep b st) s a [] (fun st' s' a' => EqPost (t * (1 + 1)) (bitF β * t + y) st' s' a') := by
  obtain ⟨ht, hy, hv⟩ := h
  unfold bitStep
  refine Run.bind0 (Run.newWit g (bitF β) (fun h => by rw [hb, opt_some h])) ?_
  intro bit s1 a1 o1 h1
  refine Run.enforce_bind o1.good (.cons h1 .nil) (.cons h1 .nil) (.cons h1 .nil)
    (by rw [one_mul, add_zero, bitF_sq]) ?_
  intro s2 o2
  replace h1 := o2.mono _ _ h1
  replace o2 := o1.trans o2
  refine Run.lift_bind (r := opt s.setup (bitF β * t + y)) ?_ ?_
  · rw [hb]
    exact mapOpt_opt (fun h => by rw [(hv h).1, (hv h).2]; rfl)
  · refine Run.bind0 (Run.newWit o2.good (bitF β * t + y) (fun h => opt_some (by rw [← o2.mode]; exact h))) ?_
    intro tmp s3 a3 o3 h3
    have ht3 := o3.mono _ _ (o2.mono _ _ ht)
    refine Run.enforce_bind o3.good (.cons (o3.mono _ _ h1) .nil) (.cons ht3 .nil)
      (.cons h3 (.cons (o3.mono _ _ (o2.mono _ _ hy)) .nil)) (by ring) ?_
    intro s4 o4
    have m4 : s4.setup = s.setup := by rw [o4.mode, o3.mode, o2.mode]
    refine Run.bind0 (Run.newWit o4.good (t * (1 + 1)) (fun h => by rw [(hv (by rw [← m4]; exact h)).1]; rfl)) ?_
    intro nt s5 a5 o5 h5
    refine Run.enforce_bind o5.good (.cons (o5.mono _ _ (o4.mono _ _ ht3)) .nil) (.cons (at_one _ _) .nil)
      (.cons h5 .nil) (by ring) ?_
    intro s6 o6
    have m6 : s6.setup = s.setup := by rw [o6.mode, o5.mode, m4]
    refine Run.pure o6.good _ ⟨o6.mono _ _ h5, o6.mono _ _ (o5.mono _ _ (o4.mono _ _ h3)), fun h => ?_⟩
    rw [m6] at h
    exact ⟨by simp only; rw [(hv h).1]; rfl, by simp only; exact opt_some h⟩

theorem bitsOpt_spec {q : Nat} (b : Bool) (v : ZMod q) (len : Nat) (hl : len ≤ 256) (β : Nat → Bool)
    (h : b = false → ∀ k < len, β k = v.val.testBit k) :
    ∃ bits, bitsOpt (opt b v) len = .ok bits ∧ bits.length = len ∧
      ∀ k < len, ∃ B, at! bits k = .ok B ∧ (boolVal B : Option (ZMod q)) = opt b (bitF (β k)) := by
  cases b with
  | true =>
    refine ⟨List.replicate len none, rfl, by simp, fun k hk => ⟨none, ?_, ?_⟩⟩
    · rw [at!_eq_ok, List.getElem?_replicate, if_pos hk]
    · rfl
  | false =>
    have hs : slice! (bitsOf 256 v.val) 0 len = .ok ((bitsOf 256 v.val).take len) := by
      unfold slice!
      rw [if_pos (by simp; omega), Nat.sub_zero, List.drop_zero]
    refine ⟨((bitsOf 256 v.val).take len).map some, ?_, by simp; omega, fun k hk => ⟨some (β k), ?_, ?_⟩⟩
    · show (slice! (bitsOf 256 v.val) 0 len >>= fun bits => Except.ok (bits.map some)) = _
      rw [hs, bind_ok]
    · rw [at!_eq_ok, List.getElem?_map, List.getElem?_take_of_lt hk, bitsOf_getElem? _ _ _ (by omega), h rfl k hk]
      rfl
    · cases β k <;> simp [boolVal, bitF, opt]

theorem two_pow_step (t : F) (k : Nat) : t * 2 ^ k * (1 + 1) = t * 2 ^ (k + 1) := by
  rw [pow_succ]; ring

theorem bit_sum_step (β : Nat → Bool) (t y : F) (k : Nat) :
    bitF (β k) * (t * 2 ^ k) + (y + t * (bnat β k : F)) = y + t * (bnat β (k + 1) : F) := by
  rw [bnat]
  cases β k <;> simp [bitF] <;> ring

/-- The bits of `yn`: the start value `c`, the first power `u` and the bits `γ` are arbitrary in
setup mode as long as the sum is the public value and equals `y`. -/
theorem ynBlock_run {q : Nat} {s : CS (ZMod q)} {a : List (ZMod q) × List (ZMod q)} (g : Good s a) {n : Nat} (h1 : 1 ≤ n)
    (h256 : n ≤ 256) {yn : ZMod q} {y : Var} (hy : At s a y yn) (c u : ZMod q) (γ : Nat → Bool)
    (hon : s.setup = false → c = 0 ∧ u = 1 ∧ ∀ k < n, γ k = yn.val.testBit k) (hsum : c + u * (bnat γ n : ZMod q) = yn) :
    Run (ynBlock n (opt s.setup yn) y) s a [yn] (fun _ _ _ => True) := by
  obtain ⟨bits, hb, hlen, hbits⟩ := bitsOpt_spec s.setup yn n h256 γ (fun h => (hon h).2.2)
  unfold ynBlock
  refine Run.lift_bind hb ?_
  refine Run.bind0 (Run.newWit g c (fun h => by rw [(hon h).1])) ?_
  intro ynv s1 a1 o1 hc
  refine Run.bind0 (Run.newWit o1.good u (fun h => by rw [(hon (by rw [← o1.mode]; exact h)).2.1])) ?_
  intro two s2 a2 o2 hu
  have o12 := o1.trans o2
  have hloop := Run.synUp (n := bits.length) (f := fun m st => do
      let b ← lift (at! bits m)
      let st ← bitStep b st
      (if m + 1 = bits.length then do
        let yyn ← newInput (opt s.setup yn)
        enforce [(1, yyn)] [(1, .one)] [(1, st.x.var)]
        enforce [(1, st.x.var)] [(1, .one)] [(1, y)]
      else pure ())
      pure st) (t := (⟨⟨two, some 1⟩, ⟨ynv, some 0⟩⟩ : EqSt (ZMod q))) o12.good
    (fun m => if m + 1 = n then [yn] else [])
    (fun m st s' a' => EqPost (u * 2 ^ m) (c + u * (bnat γ m : ZMod q)) st s' a')
    (by
      refine ⟨by simpa using hu, by simpa [bnat] using o2.mono _ _ hc, fun h => ?_⟩
      rw [o12.mode] at h
      obtain ⟨e1, e2, -⟩ := hon h
      simp [e1, e2, bnat])
    (by
      intro m hm st s' a' o hst
      have oo := o12.trans o
      obtain ⟨B, hB, hBv⟩ := hbits m (by omega)
      refine Run.lift_bind hB ?_
      refine Run.bind0 (bitStep_run o.good (by rw [oo.mode]; exact hBv) hst) ?_
      intro st1 s3 a3 o3 hst1
      rw [two_pow_step, bit_sum_step] at hst1
      rw [hlen]
      by_cases hmn : m + 1 = n
      · simp only [if_pos hmn]
        have hx : At s3 a3 st1.x.var yn := by
          have := hst1.2.1
          rwa [hmn, hsum] at this
        refine Run.bind (p := [yn]) (q := []) (Q := fun _ s4 a4 => True) ?_ (List.append_nil _).symm ?_
        · refine Run.bind (Run.newInput o3.good yn (fun h => opt_some (by rw [← oo.mode, ← o3.mode]; exact h)))
            (List.append_nil _).symm ?_
          rintro v s4 a4 o4 ⟨-, h4⟩
          refine Run.enforce_bind o4.good (.cons h4 .nil) (.cons (at_one _ _) .nil) (.cons (o4.mono _ _ hx) .nil)
            (by ring) ?_
          intro s5 o5
          refine (Run.enforce o5.good (.cons (o5.mono _ _ (o4.mono _ _ hx)) .nil) (.cons (at_one _ _) .nil)
            (.cons (o5.mono _ _ (o4.mono _ _ (o3.mono _ _ (oo.mono _ _ hy)))) .nil) (by ring)).weaken
            (fun _ _ _ _ _ => trivial)
        · intro _ s4 a4 o4 _
          exact Run.pure o4.good _ (hst1.mono o4)
      · simp only [if_neg hmn]
        refine Run.bind0 (Run.pure o3.good () (Q := fun _ s4 a4 => s4 = s3 ∧ a4 = a3) ⟨rfl, rfl⟩) ?_
        rintro _ _ _ - ⟨rfl, rfl⟩
        exact Run.pure o3.good _ hst1)
  have hp : (List.range bits.length).flatMap (fun m => if m + 1 = n then [yn] else []) = [yn] := by
    rw [flatMap_single, if_pos (by omega)]
  rw [hp] at hloop
  exact Run.last hloop (fun _ => rfl) (fun _ _ _ _ _ => trivial)

/-- The bits of the image `y`; in setup mode the start `c`, power `u`, bits `β` and the value
the sum is compared with are arbitrary as long as the sum of the first `n` bits is `yn`. -/
theorem yBlock_run {q : Nat} {s : CS (ZMod q)} {a : List (ZMod q) × List (ZMod q)} (g : Good s a) {n ySize : Nat}
    (h1 : 1 ≤ n) (hny : n ≤ ySize) (h256 : ySize ≤ 256) {yns : List (Option (ZMod q))} {i : Nat} {yn y : ZMod q}
    (hyn : at! yns i = .ok (opt s.setup yn)) (c u : ZMod q) (β : Nat → Bool)
    (hon : s.setup = false → c = 0 ∧ u = 1 ∧ (∀ k < ySize, β k = y.val.testBit k) ∧
      (bnat β ySize : ZMod q) = y ∧ (∀ k < n, β k = yn.val.testBit k))
    (hsum : c + u * (bnat β n : ZMod q) = yn) :
    Run (yBlock n ySize yns i (opt s.setup y)) s a [yn] (fun _ _ _ => True) := by
  obtain ⟨bits, hb, hlen, hbits⟩ := bitsOpt_spec s.setup y ySize h256 β (fun h => (hon h).2.2.1)
  unfold yBlock
  refine Run.lift_bind hb ?_
  refine Run.bind0 (Run.newWit g c (fun h => by rw [(hon h).1])) ?_
  intro yv s1 a1 o1 hc
  refine Run.bind0 (Run.newWit o1.good u (fun h => by rw [(hon (by rw [← o1.mode]; exact h)).2.1])) ?_
  intro two s2 a2 o2 hu
  have o12 := o1.trans o2
  have hloop := Run.synUp (n := bits.length) (f := fun k st => do
      let b ← lift (at! bits k)
      let st ← bitStep b st
      (if k + 1 = bits.length then do
        let yy ← newWit (opt s.setup y)
        enforce [(1, st.x.var)] [(1, .one)] [(1, yy)]
      else pure ())
      (if k + 1 = n then do
        let ynv ← lift (at! yns i)
        ynBlock n ynv st.x.var
      else pure ())
      pure st) (t := (⟨⟨two, some 1⟩, ⟨yv, some 0⟩⟩ : EqSt (ZMod q))) o12.good
    (fun m => if m + 1 = n then [yn] else [])
    (fun m st s' a' => EqPost (u * 2 ^ m) (c + u * (bnat β m : ZMod q)) st s' a')
    (by
      refine ⟨by simpa using hu, by simpa [bnat] using o2.mono _ _ hc, fun h => ?_⟩
      rw [o12.mode] at h
      obtain ⟨e1, e2, -⟩ := hon h
      simp [e1, e2, bnat])
    (by
      intro m hm st s' a' o hst
      have oo := o12.trans o
      obtain ⟨B, hB, hBv⟩ := hbits m (by omega)
      refine Run.lift_bind hB ?_
      refine Run.bind0 (bitStep_run o.good (by rw [oo.mode]; exact hBv) hst) ?_
      intro st1 s3 a3 o3 hst1
      rw [two_pow_step, bit_sum_step] at hst1
      rw [hlen]
      have o3' := oo.trans o3
      refine Run.bind0 (Q := fun _ _ _ => True) ?_ ?_
      · by_cases hl : m + 1 = ySize
        · simp only [if_pos hl]
          refine Run.bind0 (Run.newWit o3.good (c + u * (bnat β (m + 1) : ZMod q)) (fun h => ?_)) ?_
          · rw [o3'.mode] at h
            obtain ⟨e1, e2, -, e3, -⟩ := hon h
            rw [e1, e2, hl, e3, opt_some h, zero_add, one_mul]
          · intro yy s4 a4 o4 h4
            exact (Run.enforce o4.good (.cons (o4.mono _ _ hst1.2.1) .nil) (.cons (at_one _ _) .nil) (.cons h4 .nil)
              (by ring)).weaken (fun _ _ _ _ _ => trivial)
        · simp only [if_neg hl]
          exact Run.pure o3.good () trivial
      · intro _ s4 a4 o4 _
        have o4' := o3'.trans o4
        by_cases hmn : m + 1 = n
        · simp only [if_pos hmn]
          refine Run.bind (p := [yn]) (q := []) (Q := fun _ s4 a4 => True) ?_ (List.append_nil _).symm ?_
          · refine Run.lift_bind hyn ?_
            have hx : At s4 a4 st1.x.var yn := by
              have := (hst1.mono o4).2.1
              rwa [hmn, hsum] at this
            have := ynBlock_run o4.good h1 (by omega) hx c u β (fun h => by
              rw [o4'.mode] at h
              obtain ⟨e1, e2, -, -, e4⟩ := hon h
              exact ⟨e1, e2, e4⟩) hsum
            rwa [o4'.mode] at this
          · intro _ s5 a5 o5 _
            exact Run.pure o5.good _ ((hst1.mono o4).mono o5)
        · simp only [if_neg hmn]
          refine Run.bind0 (Run.pure o4.good () (Q := fun _ s5 a5 => s5 = s4 ∧ a5 = a4) ⟨rfl, rfl⟩) ?_
          rintro _ _ _ - ⟨rfl, rfl⟩
          exact Run.pure o4.good _ (hst1.mono o4))
  have hp : (List.range bits.length).flatMap (fun m => if m + 1 = n then [yn] else []) = [yn] := by
    rw [flatMap_single, if_pos (by omega)]
  rw [hp] at hloop
  exact Run.last hloop (fun _ => rfl) (fun _ _ _ _ _ => trivial)

/-- The Feistel state after `j` rounds. -/
def dfSeq (e : Nat) (cs : List F) (l r : F) : Nat → F × F
  | 0 => (l, r)
  | j + 1 => (((dfSeq e cs l r j).1 + cs[j]?.getD 0) ^ e + (dfSeq e cs l r j).2, (dfSeq e cs l r j).1)

theorem dfSeq_eq (e : Nat) (cs : List F) (l r : F) (k : Nat) (h : k ≤ cs.length) :
    dfSeq e cs l r k = (cs.take k).foldl (fun s c => ((s.1 + c) ^ e + s.2, s.1)) (l, r) := by
  induction k with
  | zero => rfl
  | succ k ih =>
    rw [dfSeq, ih (by omega), List.take_add_one, List.getElem?_eq_getElem (by omega), List.foldl_append]
    rfl

/-- One input of the space circuit.  In setup mode `x`, the right half `r`, and the bits are
arbitrary. -/
theorem spaceInput_run {q : Nat} {s : CS (ZMod q)} {a : List (ZMod q) × List (ZMod q)} (g : Good s a) {n ySize : Nat}
    (h1 : 1 ≤ n) (hny : n ≤ ySize) (h256 : ySize ≤ 256) {dcs : List (ZMod q)} (hcs : dcs.length = MIMC5_DF_ROUNDS)
    {key m : ZMod q} {keyVar : Var} (hkey : At s a keyVar key) {xs yns : List (Option (ZMod q))} {i : Nat} {x yn r : ZMod q}
    (hx : at! xs i = .ok (opt s.setup x)) (hyn : at! yns i = .ok (opt s.setup yn)) (hr : s.setup = false → r = m)
    (c u : ZMod q) (β : Nat → Bool)
    (hon : s.setup = false → c = 0 ∧ u = 1 ∧
      (∀ k < ySize, β k = (dfSeq 5 dcs (key + x) r MIMC5_DF_ROUNDS).1.val.testBit k) ∧
      (bnat β ySize : ZMod q) = (dfSeq 5 dcs (key + x) r MIMC5_DF_ROUNDS).1 ∧ (∀ k < n, β k = yn.val.testBit k))
    (hsum : c + u * (bnat β n : ZMod q) = yn) :
    Run (spaceInput n ySize (opt s.setup key) keyVar (opt s.setup m) xs dcs yns i) s a [yn] (fun _ _ _ => True) := by
  unfold spaceInput
  refine Run.lift_bind hx ?_
  refine Run.bind0 (Run.newWit g x (fun h => opt_some h)) ?_
  intro xv s1 a1 o1 h1'
  refine Run.lift_bind (r := opt s.setup (key + x)) (mapOpt_opt (fun h => by rw [opt_some h]; rfl)) ?_
  refine Run.bind0 (Run.newWit o1.good (key + x) (fun h => opt_some (by rw [← o1.mode]; exact h))) ?_
  intro xl s2 a2 o2 h2
  refine Run.enforce_bind o2.good (.cons (o2.mono _ _ (o1.mono _ _ hkey)) (.cons (o2.mono _ _ h1') .nil))
    (.cons (at_one _ _) .nil) (.cons h2 .nil) (by ring) ?_
  intro s3 o3
  have o3' := o1.trans (o2.trans o3)
  refine Run.bind0 (Run.newWit o3.good r (fun h => by
    rw [o3'.mode] at h
    rw [hr h, opt_some h])) ?_
  intro xr s4 a4 o4 h4
  have o4' := o3'.trans o4
  have hm' : opt s.setup m = opt s.setup r := by
    cases hs : s.setup with
    | true => rfl
    | false => rw [hr hs]
  have hloop := Run.synUp (n := MIMC5_DF_ROUNDS) (f := fun j st => do
      let st ← spaceDfRound dcs j st
      (if j + 1 = MIMC5_DF_ROUNDS then yBlock n ySize yns i st.xlv else pure ())
      pure st) (t := (⟨xl, opt s.setup (key + x), xr, opt s.setup m⟩ : DfSt (ZMod q))) o4.good
    (fun j => if j + 1 = MIMC5_DF_ROUNDS then [yn] else [])
    (fun j st s' a' => DfPost (dfSeq 5 dcs (key + x) r j).1 (dfSeq 5 dcs (key + x) r j).2 st s' a')
    ⟨o4.mono _ _ (o3.mono _ _ h2), h4, by rw [o4'.mode]; rfl, by rw [o4'.mode]; exact hm'⟩
    (by
      intro j hj st s' a' o hst
      have oo := o4'.trans o
      have hc : at! dcs j = .ok (dcs[j]?.getD 0) := by
        rw [at!_of_lt (by omega), List.getElem?_eq_getElem (by omega)]; rfl
      refine Run.bind0 (spaceDfRound_run o.good hc hst) ?_
      intro st1 s5 a5 o5 hst1
      by_cases hjn : j + 1 = MIMC5_DF_ROUNDS
      · simp only [if_pos hjn]
        refine Run.bind (p := [yn]) (q := []) (Q := fun _ s4 a4 => True) ?_ (List.append_nil _).symm ?_
        · have m5 : s5.setup = s.setup := by rw [o5.mode, oo.mode]
          have hv : st1.xlv = opt s5.setup (dfSeq 5 dcs (key + x) r MIMC5_DF_ROUNDS).1 := by
            rw [← hjn]; exact hst1.2.2.1
          rw [hv]
          exact yBlock_run o5.good h1 hny h256 (by rw [m5]; exact hyn) c u β (fun h => hon (by rw [← m5]; exact h)) hsum
        · intro _ s6 a6 o6 _
          exact Run.pure o6.good _ (hst1.mono o6)
      · simp only [if_neg hjn]
        refine Run.bind0 (Run.pure o5.good () (Q := fun _ s6 a6 => s6 = s5 ∧ a6 = a5) ⟨rfl, rfl⟩) ?_
        rintro _ _ _ - ⟨rfl, rfl⟩
        exact Run.pure o5.good _ hst1)
  have hp : (List.range MIMC5_DF_ROUNDS).flatMap (fun j => if j + 1 = MIMC5_DF_ROUNDS then [yn] else []) = [yn] := by
    rw [flatMap_single, if_pos ⟨by decide, Nat.le_refl _⟩]
  rw [hp] at hloop
  exact Run.last hloop (fun _ => rfl) (fun _ _ _ _ _ => trivial)

/-! ### Power circuit -/

/-- Loop state of the power circuit. -/
def PowPost (y g : F) (st : PowSt F) (s : CS F) (a : List F × List F) : Prop :=
  At s a st.y.var y ∧ (s.setup = false → st.y.val = some y) ∧ VAt s a st.g g

theorem powRound_run {s : CS F} {a : List F × List F} (hg : Good s a) {bits : List (Option Nat)} {i : Nat} {B : Option Nat}
    {β : Bool} (hB : at! bits i = .ok B) (hb : (bitVal B : Option F) = opt s.setup (bitF β)) {st : PowSt F} {y g : F}
    (h : PowPost y g st s a) :
    Run (powRound bits i st) s a (if i + 1 = POW_INPUT_SIZE then [y * (if β then g else 1)] else [])
      (fun st' s' a' => PowPost (y * (if β then g else 1)) (g * g) st' s' a') := by
  obtain ⟨hy, hyv, hgg⟩ := h
  have hsel : (g * bitF β + 1 - bitF β) * y = y * (if β then g else 1) := by cases β <;> simp [bitF] <;> ring
  unfold powRound
  refine Run.lift_bind hB ?_
  refine Run.bind0 (Run.newWit hg (bitF β) (fun h => by rw [hb, opt_some h])) ?_
  intro bit s1 a1 o1 h1
  refine Run.enforce_bind o1.good (.cons h1 .nil) (.cons h1 .nil) (.cons h1 .nil)
    (by rw [one_mul, add_zero, bitF_sq]) ?_
  intro s2 o2
  replace h1 := o2.mono _ _ h1
  replace o2 := o1.trans o2
  refine Run.lift_bind (r := opt s.setup (g * bitF β)) ?_ ?_
  · rw [hgg.2, hb]; exact mapOpt_opt (fun h => by rw [opt_some h]; rfl)
  refine Run.bind0 (Run.newWit o2.good (g * bitF β) (fun h => opt_some (by rw [← o2.mode]; exact h))) ?_
  intro tmp1 s3 a3 o3 h3
  refine Run.enforce_bind o3.good (.cons (o3.mono _ _ (o2.mono _ _ hgg.1)) .nil) (.cons (o3.mono _ _ h1) .nil)
    (.cons h3 .nil) (by ring) ?_
  intro s4 o4
  replace h1 := o4.mono _ _ (o3.mono _ _ h1)
  replace h3 := o4.mono _ _ h3
  replace o4 := o2.trans (o3.trans o4)
  refine Run.lift_bind (r := opt s.setup (g * bitF β + 1 - bitF β)) ?_ ?_
  · rw [hb]; exact mapOpt_opt (fun h => by rw [opt_some h]; rfl)
  refine Run.bind0 (Run.newWit o4.good (g * bitF β + 1 - bitF β) (fun h => opt_some (by rw [← o4.mode]; exact h))) ?_
  intro tmp2 s5 a5 o5 h5
  refine Run.enforce_bind o5.good (.cons (o5.mono _ _ h3) (.cons (at_one _ _) .nil)) (.cons (at_one _ _) .nil)
    (.cons h5 (.cons (o5.mono _ _ h1) .nil)) (by ring) ?_
  intro s6 o6
  replace h5 := o6.mono _ _ h5
  replace o6 := o4.trans (o5.trans o6)
  refine Run.lift_bind (r := opt s.setup (y * (if β then g else 1))) ?_ ?_
  · refine mapOpt_opt (fun h => ?_)
    rw [hyv h, ← hsel]; rfl
  refine Run.bind (Run.newVar o6.good (y * (if β then g else 1)) (fun h => opt_some (by rw [← o6.mode]; exact h)))
    (List.append_nil _).symm ?_
  rintro ny s7 a7 o7 ⟨h7, -⟩
  refine Run.enforce_bind o7.good (.cons (o7.mono _ _ (o6.mono _ _ hy)) .nil) (.cons (o7.mono _ _ h5) .nil)
    (.cons h7 .nil) (by rw [← hsel]; ring) ?_
  intro s8 o8
  replace h7 := o8.mono _ _ h7
  replace o8 := o6.trans (o7.trans o8)
  refine Run.bind0 (Run.newWit o8.good (g * g) (fun h => by
    rw [hgg.2, opt_map, opt_some (by rw [← o8.mode]; exact h)])) ?_
  intro ng s9 a9 o9 h9
  have hg9 := o9.mono _ _ (o8.mono _ _ hgg.1)
  refine Run.enforce_bind o9.good (.cons hg9 .nil) (.cons hg9 .nil) (.cons h9 .nil) (by ring) ?_
  intro s10 o10
  have m : s10.setup = s.setup := by rw [o10.mode, o9.mode, o8.mode]
  refine Run.pure o10.good _ ⟨o10.mono _ _ (o9.mono _ _ h7), fun h => ?_, o10.mono _ _ h9, ?_⟩
  · exact opt_some (by rw [← m]; exact h)
  · simp only; rw [hgg.2, opt_map, m]

theorem powRound_snd (bits : List (Option Nat)) (i : Nat) (st : PowSt F) [IsDomain F] :
    Snd (powRound bits i st) (fun st' s s' a =>
      (valA a st'.y.var = valA a st.y.var ∨ valA a st'.y.var = valA a st.y.var * valA a st.g.var) ∧
      valA a st'.g.var = valA a st.g.var * valA a st.g.var ∧
      (i + 1 = POW_INPUT_SIZE → st'.y.var = .inst s.nInst) ∧
      s'.nInst = s.nInst + if i + 1 = POW_INPUT_SIZE then 1 else 0) := by
  unfold powRound
  refine (Snd.bind (Snd.lift _) (fun _ => Snd.bind (Snd.newWit _) (fun bit => Snd.bind (Snd.enforce _ _ _) (fun _ =>
    Snd.bind (Snd.lift _) (fun _ => Snd.bind (Snd.newWit _) (fun tmp1 => Snd.bind (Snd.enforce _ _ _) (fun _ =>
    Snd.bind (Snd.lift _) (fun _ => Snd.bind (Snd.newWit _) (fun tmp2 => Snd.bind (Snd.enforce _ _ _) (fun _ =>
    Snd.bind (Snd.lift _) (fun _ => Snd.bind (Snd.ite (Snd.newInput _) (Snd.newWit _)) (fun ny =>
    Snd.bind (Snd.enforce _ _ _) (fun _ => Snd.bind (Snd.newWit _) (fun ng => Snd.bind (Snd.enforce _ _ _)
      (fun _ => Snd.pure _))))))))))))))).weaken ?_
  rintro st' s s' a ⟨_, _, ⟨-, rfl⟩, bit, s1, ⟨-, -, i1⟩, _, s2, ⟨e2, i2, -⟩, _, _, ⟨-, rfl⟩, tmp1, s3, ⟨-, -, i3⟩, _, s4,
    ⟨e4, i4, -⟩, _, _, ⟨-, rfl⟩, tmp2, s5, ⟨-, -, i5⟩, _, s6, ⟨e6, i6, -⟩, _, _, ⟨-, rfl⟩, ny, s7, hny, _, s8, ⟨e8, i8, -⟩,
    ng, s9, ⟨-, -, i9⟩, _, s10, ⟨e10, i10, -⟩, rfl, rfl⟩
  simp only [evalLC_cons, evalLC_nil, valA_one, one_mul, add_zero, mul_one] at e2 e4 e6 e8 e10
  have hb : valA a bit = 0 ∨ valA a bit = 1 := by
    have : valA a bit * (valA a bit - 1) = 0 := by rw [mul_sub, e2]; ring
    rcases mul_eq_zero.mp this with h | h
    · exact Or.inl h
    · exact Or.inr (sub_eq_zero.mp h)
  refine ⟨?_, e10.symm, ?_, ?_⟩
  · rcases hb with h | h
    · left
      rw [h] at e4 e6
      rw [← e8, ← add_zero (valA a tmp2), ← e6, ← e4]; ring
    · right
      rw [h] at e4 e6
      have : valA a tmp2 = valA a st.g.var := by
        have e : valA a tmp1 = valA a tmp2 := add_right_cancel e6
        rw [← e, ← e4, mul_one]
      rw [← e8, this]
  · intro hi
    rcases hny with ⟨-, h, -⟩ | ⟨h, -⟩
    · simp only; rw [h, i6, i5, i4, i3, i2, i1]
    · exact absurd hi h
  · rcases hny with ⟨hi, -, h, -⟩ | ⟨hi, -, -, h⟩
    · rw [if_pos hi]; omega
    · rw [if_neg hi]; omega

/-! ### Equality circuit -/

theorem equalRound_run {s : CS F} {a : List F × List F} (g : Good s a) {bits : List (Option Nat)} {i d : Nat}
    (hd : 1 ≤ d) {B : Option Nat} {β : Bool} (hB : at! bits i = .ok B)
    (hb : (bitVal B : Option F) = opt s.setup (bitF β)) {x1 x2 : F} {st : EqSt F} {t y : F} (h : EqPost t y st s a)
    (hx1 : i + 1 = d → x1 = bitF β * t + y) (hx2 : i + 1 = EQUAL_INPUT_SIZE → x2 = bitF β * t + y) :
    Run (equalRound (opt s.setup x1) (opt s.setup x2) bits d i st) s a
      ((if i + 1 = d then [x1] else []) ++ (if i + 1 = EQUAL_INPUT_SIZE then [x2] else []))
      (fun st' s' a' => EqPost (t * (1 + 1)) (bitF β * t + y) st' s' a') := by
  obtain ⟨ht, hy, hv⟩ := h
  unfold equalRound
  refine Run.lift_bind hB ?_
  refine Run.bind0 (Run.newWit g (bitF β) (fun h => by rw [hb, opt_some h])) ?_
  intro bit s1 a1 o1 h1
  refine Run.enforce_bind o1.good (.cons h1 .nil) (.cons h1 .nil) (.cons h1 .nil)
    (by rw [one_mul, add_zero, bitF_sq]) ?_
  intro s2 o2
  replace h1 := o2.mono _ _ h1
  replace o2 := o1.trans o2
  refine Run.lift_bind (r := opt s.setup (bitF β * t)) ?_ ?_
  · rw [hb]; exact mapOpt_opt (fun h => by rw [(hv h).1]; rfl)
  refine Run.bind0 (Run.newWit o2.good (bitF β * t) (fun h => opt_some (by rw [← o2.mode]; exact h))) ?_
  intro tmp1 s3 a3 o3 h3
  have ht3 := o3.mono _ _ (o2.mono _ _ ht)
  refine Run.enforce_bind o3.good (.cons (o3.mono _ _ h1) .nil) (.cons ht3 .nil) (.cons h3 .nil) (by ring) ?_
  intro s4 o4
  replace h3 := o4.mono _ _ h3
  replace ht3 := o4.mono _ _ ht3
  replace o4 := o2.trans (o3.trans o4)
  refine Run.lift_bind (r := opt s.setup (bitF β * t + y)) ?_ ?_
  · exact mapOpt_opt (fun h => by rw [(hv h).2]; rfl)
  refine Run.bind0 (Run.newWit o4.good (bitF β * t + y) (fun h => opt_some (by rw [← o4.mode]; exact h))) ?_
  intro tmp2 s5 a5 o5 h5
  refine Run.enforce_bind o5.good (.cons (o5.mono _ _ h3) (.cons (o5.mono _ _ (o4.mono _ _ hy)) .nil))
    (.cons (at_one _ _) .nil) (.cons h5 .nil) (by ring) ?_
  intro s6 o6
  replace h5 := o6.mono _ _ h5
  replace ht3 := o6.mono _ _ (o5.mono _ _ ht3)
  replace o6 := o4.trans (o5.trans o6)
  refine Run.lift_bind (sub!_of_le hd) ?_
  refine Run.bind (Q := fun _ _ _ => True) (p := if i + 1 = d then [x1] else [])
    (q := if i + 1 = EQUAL_INPUT_SIZE then [x2] else []) ?_ rfl ?_
  · by_cases hi : i = d - 1
    · have hi' : i + 1 = d := by omega
      rw [if_pos hi, if_pos hi']
      refine Run.bind (Run.newInput o6.good x1 (fun h => opt_some (by rw [← o6.mode]; exact h)))
        (List.append_nil _).symm ?_
      rintro v s7 a7 o7 ⟨-, h7⟩
      exact (Run.enforce o7.good (.cons (o7.mono _ _ h5) .nil) (.cons (at_one _ _) .nil) (.cons h7 .nil)
        (by rw [hx1 hi']; ring)).weaken (fun _ _ _ _ _ => trivial)
    · rw [if_neg hi, if_neg (by omega)]
      exact Run.pure o6.good () trivial
  · intro _ s7 a7 o7 _
    replace h5 := o7.mono _ _ h5
    replace ht3 := o7.mono _ _ ht3
    replace o7 := o6.trans o7
    refine Run.bind (Q := fun _ _ _ => True) (p := if i + 1 = EQUAL_INPUT_SIZE then [x2] else []) (q := []) ?_
      (List.append_nil _).symm ?_
    · by_cases hi : i + 1 = EQUAL_INPUT_SIZE
      · rw [if_pos hi, if_pos hi]
        refine Run.bind (Run.newInput o7.good x2 (fun h => opt_some (by rw [← o7.mode]; exact h)))
          (List.append_nil _).symm ?_
        rintro v s8 a8 o8 ⟨-, h8⟩
        exact (Run.enforce o8.good (.cons (o8.mono _ _ h5) .nil) (.cons (at_one _ _) .nil) (.cons h8 .nil)
          (by rw [hx2 hi]; ring)).weaken (fun _ _ _ _ _ => trivial)
      · rw [if_neg hi, if_neg hi]
        exact Run.pure o7.good () trivial
    · intro _ s8 a8 o8 _
      have m8 : s8.setup = s.setup := by rw [o8.mode, o7.mode]
      refine Run.bind0 (Run.newWit o8.good (t * (1 + 1)) (fun h => by rw [(hv (by rw [← m8]; exact h)).1]; rfl)) ?_
      intro nt s9 a9 o9 h9
      refine Run.enforce_bind o9.good (.cons (o9.mono _ _ (o8.mono _ _ ht3)) .nil) (.cons (at_one _ _) .nil)
        (.cons h9 .nil) (by ring) ?_
      intro s10 o10
      have m10 : s10.setup = s.setup := by rw [o10.mode, o9.mode, m8]
      refine Run.pure o10.good _ ⟨o10.mono _ _ h9, o10.mono _ _ (o9.mono _ _ (o8.mono _ _ h5)), fun h => ?_⟩
      rw [m10] at h
      exact ⟨by simp only; rw [(hv h).1]; rfl, by simp only; exact opt_some h⟩

theorem equalRound_snd (x1 x2 : Option F) (bits : List (Option Nat)) (d i : Nat) (st : EqSt F) [IsDomain F] :
    Snd (equalRound x1 x2 bits d i st) (fun st' s s' a =>
      (valA a st'.x.var = valA a st.x.var ∨ valA a st'.x.var = valA a st.x.var + valA a st.two.var) ∧
      valA a st'.two.var = valA a st.two.var * 2 ∧ 1 ≤ d ∧
      (i + 1 = d → valA a (.inst s.nInst) = valA a st'.x.var) ∧
      (i + 1 = EQUAL_INPUT_SIZE → valA a (.inst (s.nInst + if i + 1 = d then 1 else 0)) = valA a st'.x.var) ∧
      s'.nInst = s.nInst + (if i + 1 = d then 1 else 0) + if i + 1 = EQUAL_INPUT_SIZE then 1 else 0) := by
  unfold equalRound
  refine (Snd.bind (Snd.lift _) (fun _ => Snd.bind (Snd.newWit _) (fun bit => Snd.bind (Snd.enforce _ _ _) (fun _ =>
    Snd.bind (Snd.lift _) (fun _ => Snd.bind (Snd.newWit _) (fun tmp1 => Snd.bind (Snd.enforce _ _ _) (fun _ =>
    Snd.bind (Snd.lift _) (fun _ => Snd.bind (Snd.newWit _) (fun tmp2 => Snd.bind (Snd.enforce _ _ _) (fun _ =>
    Snd.bind (Snd.lift _) (fun d' => Snd.bind (Snd.ite (Snd.bind (Snd.newInput _) (fun _ => Snd.enforce _ _ _)) (Snd.pure _))
    (fun _ => Snd.bind (Snd.ite (Snd.bind (Snd.newInput _) (fun _ => Snd.enforce _ _ _)) (Snd.pure _)) (fun _ =>
    Snd.bind (Snd.newWit _) (fun nt => Snd.bind (Snd.enforce _ _ _) (fun _ => Snd.pure _))))))))))))))).weaken ?_
  rintro st' s s' a ⟨_, z0, ⟨-, q0⟩, bit, s1, ⟨-, -, i1⟩, _, s2, ⟨e2, i2, -⟩, _, z1, ⟨-, q1⟩, tmp1, s3, ⟨-, -, i3⟩, _, s4,
    ⟨e4, i4, -⟩, _, z2, ⟨-, q2⟩, tmp2, s5, ⟨-, -, i5⟩, _, s6, ⟨e6, i6, -⟩, d', z3, ⟨hd, q3⟩, _, s7, hA, _, s8, hB,
    nt, s9, ⟨-, -, i9⟩, _, s10, ⟨e10, i10, -⟩, rfl, q4⟩
  replace q0 := congrArg CS.nInst q0
  replace q1 := congrArg CS.nInst q1
  replace q2 := congrArg CS.nInst q2
  replace q3 := congrArg CS.nInst q3
  replace q4 := congrArg CS.nInst q4
  simp only [evalLC_cons, evalLC_nil, valA_one, one_mul, add_zero, mul_one] at e2 e4 e6 e10 hA hB
  have hd1 : 1 ≤ d ∧ d' = d - 1 := by
    unfold sub! at hd
    by_cases h : 1 ≤ d
    · rw [if_pos h] at hd; exact ⟨h, (Except.ok.inj hd).symm⟩
    · rw [if_neg h] at hd; cases hd
  obtain ⟨hd1, rfl⟩ := hd1
  have hb : valA a bit = 0 ∨ valA a bit = 1 := by
    have : valA a bit * (valA a bit - 1) = 0 := by rw [mul_sub, e2]; ring
    rcases mul_eq_zero.mp this with h | h
    · exact Or.inl h
    · exact Or.inr (sub_eq_zero.mp h)
  have hs6 : z3.nInst = s.nInst := by omega
  have hA' : (i + 1 = d → valA a (.inst s.nInst) = valA a tmp2) ∧ s7.nInst = s.nInst + if i + 1 = d then 1 else 0 := by
    rcases hA with ⟨h, v, s11, ⟨hv, hn, -⟩, hE, hn2, -⟩ | ⟨h, -, h2⟩
    · have h' : i + 1 = d := by omega
      rw [if_pos h']
      refine ⟨fun _ => ?_, by omega⟩
      rw [hE, hv, hs6]
    · have h' : ¬ i + 1 = d := by omega
      rw [if_neg h']
      exact ⟨fun h => absurd h h', by rw [h2]; omega⟩
  have hB' : (i + 1 = EQUAL_INPUT_SIZE → valA a (.inst s7.nInst) = valA a tmp2) ∧
      s8.nInst = s7.nInst + if i + 1 = EQUAL_INPUT_SIZE then 1 else 0 := by
    rcases hB with ⟨h, v, s11, ⟨hv, hn, -⟩, hE, hn2, -⟩ | ⟨h, -, h2⟩
    · rw [if_pos h]
      refine ⟨fun _ => ?_, by omega⟩
      rw [hE, hv]
    · rw [if_neg h]
      exact ⟨fun h' => absurd h' h, by rw [h2]; omega⟩
  refine ⟨?_, ?_, hd1, hA'.1, ?_, ?_⟩
  · rcases hb with h | h
    · left
      rw [h, zero_mul] at e4
      rw [← e6, ← e4, zero_add]
    · right
      rw [h, one_mul] at e4
      rw [← e6, ← e4]; ring
  · simp only; rw [← e10]; ring
  · intro h
    rw [← hA'.2]
    exact hB'.1 h
  · have := hA'.2
    have := hB'.2
    omega

/-! ### Soundness of the Feistel rounds -/

theorem mimc5DfRound_snd (cs : List F) (i : Nat) (st : DfSt F) :
    Snd (mimc5DfRound cs i st) (fun st' s s' a =>
      valA a st'.xl = (valA a st.xl + cs[i]?.getD 0) ^ 5 + valA a st.xr ∧ valA a st'.xr = valA a st.xl ∧
      (i + 1 = MIMC5_DF_ROUNDS → st'.xl = .inst s.nInst) ∧
      s'.nInst = s.nInst + if i + 1 = MIMC5_DF_ROUNDS then 1 else 0) := by
  unfold mimc5DfRound
  refine (Snd.bind (Snd.lift _) (fun c => Snd.bind (Snd.newWit _) (fun t1 => Snd.bind (Snd.enforce _ _ _) (fun _ =>
    Snd.bind (Snd.newWit _) (fun t2 => Snd.bind (Snd.enforce _ _ _) (fun _ => Snd.bind (Snd.lift _) (fun _ =>
    Snd.bind (Snd.ite (Snd.newInput _) (Snd.newWit _)) (fun new => Snd.bind (Snd.enforce _ _ _) (fun _ =>
    Snd.pure _))))))))).weaken ?_
  rintro st' s s' a ⟨c, _, ⟨hc, rfl⟩, t1, s1, ⟨-, -, i1⟩, _, s2, ⟨e2, i2, -⟩, t2, s3, ⟨-, -, i3⟩, _, s4, ⟨e4, i4, -⟩, _, _,
    ⟨-, rfl⟩, new, s5, hn, _, s6, ⟨e6, i6, -⟩, rfl, rfl⟩
  simp only [evalLC_cons, evalLC_nil, valA_one, one_mul, add_zero, mul_one] at e2 e4 e6
  rw [at!_eq_ok] at hc
  rw [hc, Option.getD_some]
  refine ⟨?_, rfl, ?_, ?_⟩
  · simp only
    have : valA a new = valA a t2 * (valA a st.xl + c) + valA a st.xr := by rw [e6]; ring
    rw [this, ← e4, ← e2]; ring
  · intro hi
    rcases hn with ⟨-, h, -⟩ | ⟨h, -⟩
    · simp only; rw [h, i4, i3, i2, i1]
    · exact absurd hi h
  · rcases hn with ⟨hi, -, h, -⟩ | ⟨hi, -, -, h⟩
    · rw [if_pos hi]; omega
    · rw [if_neg hi]; omega

theorem mimc3DfRound_snd (cs : List F) (i : Nat) (st : DfSt F) :
    Snd (mimc3DfRound cs i st) (fun st' s s' a =>
      valA a st'.xl = (valA a st.xl + cs[i]?.getD 0) ^ 3 + valA a st.xr ∧ valA a st'.xr = valA a st.xl ∧
      (i + 1 = MIMC3_DF_ROUNDS → st'.xl = .inst s.nInst) ∧
      s'.nInst = s.nInst + if i + 1 = MIMC3_DF_ROUNDS then 1 else 0) := by
  unfold mimc3DfRound
  refine (Snd.bind (Snd.lift _) (fun c => Snd.bind (Snd.newWit _) (fun t1 => Snd.bind (Snd.enforce _ _ _) (fun _ =>
    Snd.bind (Snd.lift _) (fun _ =>
    Snd.bind (Snd.ite (Snd.newInput _) (Snd.newWit _)) (fun new => Snd.bind (Snd.enforce _ _ _) (fun _ =>
    Snd.pure _))))))).weaken ?_
  rintro st' s s' a ⟨c, _, ⟨hc, rfl⟩, t1, s1, ⟨-, -, i1⟩, _, s4, ⟨e2, i2, -⟩, _, _,
    ⟨-, rfl⟩, new, s5, hn, _, s6, ⟨e6, i6, -⟩, rfl, rfl⟩
  simp only [evalLC_cons, evalLC_nil, valA_one, one_mul, add_zero, mul_one] at e2 e6
  rw [at!_eq_ok] at hc
  rw [hc, Option.getD_some]
  refine ⟨?_, rfl, ?_, ?_⟩
  · simp only
    have : valA a new = valA a t1 * (valA a st.xl + c) + valA a st.xr := by rw [e6]; ring
    rw [this, ← e2]; ring
  · intro hi
    rcases hn with ⟨-, h, -⟩ | ⟨h, -⟩
    · simp only; rw [h, i2, i1]
    · exact absurd hi h
  · rcases hn with ⟨hi, -, h, -⟩ | ⟨hi, -, -, h⟩
    · rw [if_pos hi]; omega
    · rw [if_neg hi]; omega

end PoS
