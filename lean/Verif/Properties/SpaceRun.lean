import Verif.Model.SpaceRun
import Verif.Properties.CircuitShape

/-
C76, C77: the value of the hashes; the outcome of a whole proof-of-space run.
-/

namespace PoS

set_option linter.unusedSectionVars false

/-! ### C76 -/

/-- MiMC with exponent `e`: the first round has no constant, every further round `i` adds the
constant `cs[i]`; the key is added in every round and at the end. -/
def mimcSpec {F : Type} [CommRing F] (e : Nat) (cs : List F) (key : F) : Nat → F → F
  | 0, x => (x + key) ^ e
  | i + 1, x => (mimcSpec e cs key i x + key + cs[i + 1]?.getD 0) ^ e

theorem mimcSpec_eq {F : Type} [CommRing F] (e : Nat) (cs : List F) (key x : F) (i : Nat) (h : i < cs.length) :
    ((cs.drop 1).take i).foldl (fun h c => (h + key + c) ^ e) ((x + key) ^ e) = mimcSpec e cs key i x := by
  induction i with
  | zero => simp [mimcSpec]
  | succ i ih =>
    have hd : i < (cs.drop 1).length := by rw [List.length_drop]; omega
    rw [List.take_succ, List.foldl_append, ih (by omega), List.getElem?_drop, Nat.add_comm 1 i,
      List.getElem?_eq_getElem h]
    simp [mimcSpec, List.getElem?_eq_getElem h]

/-- The value of the two hashes: 10 rounds of fifth powers, 91 rounds of seventh powers. -/
theorem C76_hash_value {F : Type} [CommRing F] (x key : F) (cs : List F) :
    (10 ≤ cs.length → mimc5Hash x key cs = .ok (mimcSpec 5 cs key 9 x + key)) ∧
    (91 ≤ cs.length → mimc7Hash x key cs = .ok (mimcSpec 7 cs key 90 x + key)) :=
  ⟨fun h => by rw [mimc5Hash_eq _ _ _ h, mimcSpec_eq _ _ _ _ _ (by omega)],
   fun h => by rw [mimc7Hash_eq _ _ _ h, mimcSpec_eq _ _ _ _ _ (by omega)]⟩

/-- The hash of several inputs: starting from the key, every input `x` turns the running value `r`
into `r + x + hash of x under the key r`; no input at all gives the key. -/
theorem C76_multi_hash {F : Type} [CommRing F] (key : F) (cs : List F) :
    multiMimc5Hash [] key cs = .ok key ∧ multiMimc7Hash [] key cs = .ok key ∧
    (10 ≤ cs.length → ∀ xs x, ∃ r, multiMimc5Hash xs key cs = .ok r ∧
      multiMimc5Hash (xs ++ [x]) key cs = .ok (r + x + (mimcSpec 5 cs r 9 x + r))) ∧
    (91 ≤ cs.length → ∀ xs x, ∃ r, multiMimc7Hash xs key cs = .ok r ∧
      multiMimc7Hash (xs ++ [x]) key cs = .ok (r + x + (mimcSpec 7 cs r 90 x + r))) := by
  refine ⟨rfl, rfl, fun h xs x => ?_, fun h xs x => ?_⟩
  · obtain ⟨r, hr⟩ := multiMimc5Hash_total xs key cs h
    refine ⟨r, hr, ?_⟩
    unfold multiMimc5Hash at hr ⊢
    rw [forEach_append, hr, bind_ok, forEach_cons, (C76_hash_value x r cs).1 h, bind_ok]
    rfl
  · have ht : ∃ r, multiMimc7Hash xs key cs = .ok r := by
      unfold multiMimc7Hash
      induction xs generalizing key with
      | nil => exact ⟨key, rfl⟩
      | cons x xs ih =>
        rw [forEach_cons, mimc7Hash_eq _ _ _ h, bind_ok]
        exact ih _
    obtain ⟨r, hr⟩ := ht
    refine ⟨r, hr, ?_⟩
    unfold multiMimc7Hash at hr ⊢
    rw [forEach_append, hr, bind_ok, forEach_cons, (C76_hash_value x r cs).2 h, bind_ok]
    rfl

/-- The first of the round constants has no influence on either hash. -/
theorem C76_first_constant_unused {F : Type} [CommRing F] (x key c c' : F) (cs : List F) :
    mimc5Hash x key (c :: cs) = mimc5Hash x key (c' :: cs) ∧ mimc7Hash x key (c :: cs) = mimc7Hash x key (c' :: cs) := by
  constructor
  · by_cases h : 10 ≤ (c :: cs).length
    · rw [mimc5Hash_eq _ _ _ h, mimc5Hash_eq _ _ (c' :: cs) (by simpa using h)]
      rfl
    · rw [(C43_few_constants x key (c :: cs)).1 (by omega), (C43_few_constants x key (c' :: cs)).1 (by
        simp only [List.length_cons] at h ⊢; omega)]
  · by_cases h : 91 ≤ (c :: cs).length
    · rw [mimc7Hash_eq _ _ _ h, mimc7Hash_eq _ _ (c' :: cs) (by simpa using h)]
      rfl
    · rw [(C43_few_constants x key (c :: cs)).2 (by omega), (C43_few_constants x key (c' :: cs)).2 (by
        simp only [List.length_cons] at h ⊢; omega)]

/-- A value over a small field, and the chained hash of two inputs. -/
example : mimc5Hash (3 : ZMod 103) 5 [9, 1, 2, 3, 4, 5, 6, 7, 8, 9] = .ok (mimcSpec 5 [9, 1, 2, 3, 4, 5, 6, 7, 8, 9] 5 9 3 + 5) ∧
    mimcSpec (5 : Nat) [9, 1, 2, 3, 4, 5, 6, 7, 8, 9] (5 : ZMod 103) 1 3 = ((3 + 5) ^ 5 + 5 + 1) ^ 5 := by decide +kernel

/-! ### C77 -/

theorem length_hits (look : Nat → Option Nat) (l : List Nat) (i : Nat) :
    ((l.zipIdx i).filterMap (fun yi => (look yi.1).map (fun x => (x, yi.2)))).length =
      l.countP (fun y => (look y).isSome) := by
  induction l generalizing i with
  | nil => rfl
  | cons y l ih =>
    rw [List.zipIdx_cons, List.filterMap_cons, List.countP_cons]
    cases h : look y with
    | none => simp [h, ih]
    | some x => simp [h, ih]

/-- The outcome of a whole run.  `occupied y` says that some input below `2^n` is stored at `y`.
The run of an honest prover succeeds exactly if at least `want` of the challenges (with
repetitions) are occupied, and then answers `want` challenges; otherwise it panics in the
verifier's assertion.  The only thing assumed about the proof system is that checking a proof which
was made for the same constraint system, from a satisfying assignment and with the same public
inputs, does not fail. -/
theorem C77_run {q : Nat} [NeZero q] {n ySize : Nat} (h3 : 3 ≤ n) (h64 : n < 64) (hny : n ≤ ySize) (h256 : ySize ≤ 256)
    (hq : q ≤ 2 ^ ySize) {dcs hcs : List (ZMod q)} (hd : dcs.length = 10) (hh : hcs.length = 10) (key m : ZMod q)
    (chCount want : Nat) (hw : 0 < want) (draw : Nat → Nat)
    (prove : CS (ZMod q) → CS (ZMod q) → List (ZMod q) → Option Bool)
    (hprove : ∀ pk s, pk.nInst = s.nInst → pk.nWit = s.nWit → pk.cons = s.cons → Satisfies s.cons (s.inst, s.wit) →
      prove pk s s.inst ≠ none)
    (occupied : Nat → Bool)
    (hocc : ∀ y < 2 ^ n, occupied y = true ↔
      ∃ x : Nat, x < 2 ^ n ∧ ∃ Y, mimc5Df ((x : ZMod q) + key) m dcs = .ok Y ∧ Y.val % 2 ^ n = y) :
    ∃ challenges, spaceChallenges draw chCount n = .ok challenges ∧
      pospaceRun n ySize chCount want dcs hcs key m draw prove =
        if want ≤ challenges.countP occupied then .ok want else .error .assertion := by
  obtain ⟨challenges, hc, -, hlt⟩ := C41_in_range draw chCount n h64
  refine ⟨challenges, hc, ?_⟩
  obtain ⟨slot, hslot, look, hlook, hnone, file, h, hf, hr, hhash⟩ := C39_response key m dcs hd n h3 h64 hcs (by omega)
    challenges hlt want hw
  obtain ⟨file', xs, idxs, h', inputs, hf', hr', hin, s, hs, hsat, hinst⟩ := C45_honest_run h3 h64 hny h256 hq hd hh key m
    challenges hlt want hw
  obtain rfl : file = file' := by rw [hf] at hf'; exact Except.ok.inj hf'
  set all := challenges.zipIdx.filterMap (fun yi => (look yi.1).map (fun x => (x, yi.2))) with hall
  have hlen : all.length = challenges.countP occupied := by
    rw [hall, length_hits]
    refine List.countP_congr fun y hy => ?_
    rw [hocc y (hlt y hy)]
    constructor
    · intro hsome
      obtain ⟨x, hx⟩ := Option.isSome_iff_exists.mp hsome
      obtain ⟨hx1, hx2, -⟩ := hlook y x hx
      obtain ⟨Y, hY, hYs⟩ := hslot x
      exact ⟨x, hx1, Y, hY, by rw [← hYs, hx2]⟩
    · rintro ⟨x, hx, Y, hY, hYy⟩
      by_contra hno
      have : look y = none := by simpa using hno
      obtain ⟨Y', hY', hs'⟩ := hslot x
      rw [hY] at hY'
      obtain rfl := Except.ok.inj hY'
      exact hnone y (hlt y hy) this x hx (by rw [hs', hYy])
  rw [hr] at hr'
  obtain ⟨rfl, rfl, rfl⟩ : _ ∧ _ ∧ _ := by
    have := Except.ok.inj hr'
    exact ⟨congrArg Prod.fst this, congrArg (fun t => t.2.1) this, congrArg (fun t => t.2.2) this⟩
  have hidx : ∀ i ∈ (all.take want).map Prod.snd, i < challenges.length := by
    intro i hi
    obtain ⟨t, ht, rfl⟩ := List.mem_map.mp hi
    obtain ⟨⟨y, j⟩, h1, h2⟩ := List.mem_filterMap.mp (List.mem_of_mem_take ht)
    obtain ⟨x, hx, rfl⟩ := Option.map_eq_some_iff.mp h2
    exact (List.getElem?_eq_some_iff.mp (List.mk_mem_zipIdx_iff_getElem?.mp h1)).1
  obtain ⟨pk, hpk, -, hmis⟩ := C49_count_mismatch (q := q) (n := n) (ySize := ySize) (by omega) hny h256 hd hh want hw
  have hcnt : ((all.take want).map Prod.snd).length = min want (challenges.countP occupied) := by
    rw [List.length_map, List.length_take, hlen]
  have hpre : pospaceRun n ySize chCount want dcs hcs key m draw prove =
      (do
        spaceVerify (pk.nInst + 1) (prove pk s) key m challenges ((all.take want).map Prod.snd) h
        pure ((all.take want).map Prod.snd).length) := by
    unfold pospaceRun
    obtain ⟨f, hf1, hf2⟩ := bind_eq_ok.mp hf
    simp only [hf1, hf2, hc, hr, hpk, hs, bind_ok]
    rw [if_pos hsat]
  rw [hpre]
  by_cases hle : want ≤ challenges.countP occupied
  · rw [if_pos hle]
    rw [Nat.min_eq_left hle] at hcnt
    have hxs : ((all.take want).map (fun xi => (xi.1 : ZMod q))).length = want := by
      rw [List.length_map, List.length_take, hlen, Nat.min_eq_left hle]
    obtain ⟨e1, e2, e3⟩ := C49_space_shape n ySize want dcs hcs pk s key m _ challenges _ hxs hpk hs
    have hne : (all.take want).map (fun xi => (xi.1 : ZMod q)) ≠ [] := by
      intro h0
      rw [h0] at hxs
      simp at hxs
      omega
    have hI := hinst hne
    have hp := hprove pk s e1 e2 e3 hsat
    obtain ⟨g, hg1, hg2⟩ := C46_every_statement_provable (q := q) (n := n) (ySize := ySize) (by omega) hny h256 hd hh want hw
    have hg : g = pk := by rw [hpk] at hg1; exact (congrArg Prod.snd (Except.ok.inj hg1)).symm
    subst hg
    rw [(C48_accepts_iff (g.nInst + 1) (prove g s) key m challenges _ h hidx).mpr ⟨by rw [hcnt, hg2.1], ?_⟩, bind_ok, hcnt]
    · rfl
    · rw [verifyInputs_eq key m challenges _ h hidx] at hin
      rw [Except.ok.inj hin, ← hI]
      exact Option.ne_none_iff_exists'.mp hp
  · rw [if_neg hle, hmis _ key m challenges _ h (by rw [hcnt]; omega) hidx]
    rfl

/-- The shipped run: 100 challenges of 20 bits, 50 answers, the BLS12-381 scalar field. -/
theorem C77_shipped (dcs hcs : List (ZMod blsR)) (hd : dcs.length = 10) (hh : hcs.length = 10) (key m : ZMod blsR)
    (draw : Nat → Nat) (prove : CS (ZMod blsR) → CS (ZMod blsR) → List (ZMod blsR) → Option Bool)
    (hprove : ∀ pk s, pk.nInst = s.nInst → pk.nWit = s.nWit → pk.cons = s.cons → Satisfies s.cons (s.inst, s.wit) →
      prove pk s s.inst ≠ none)
    (occupied : Nat → Bool)
    (hocc : ∀ y < 2 ^ 20, occupied y = true ↔
      ∃ x : Nat, x < 2 ^ 20 ∧ ∃ Y, mimc5Df ((x : ZMod blsR) + key) m dcs = .ok Y ∧ Y.val % 2 ^ 20 = y) :
    ∃ challenges, spaceChallenges draw 100 20 = .ok challenges ∧
      pospaceRun SPACE_N Y_SIZE CHALLENGE_COUNT RESPONSE_COUNT dcs hcs key m draw prove =
        if 50 ≤ challenges.countP occupied then .ok 50 else .error .assertion :=
  haveI : NeZero blsR := ⟨by decide⟩
  C77_run (n := 20) (ySize := 256) (by omega) (by omega) (by omega) (by omega) (by unfold blsR; norm_num) hd hh key m 100 50
    (by omega) draw prove hprove occupied hocc

/-- Over a small field: with enough occupied challenges the run answers two of them; with challenges
that hit nothing the honest prover makes the verifier panic. -/
example : pospaceRun (q := 103) 3 7 4 2 [1, 2, 3, 4, 5, 6, 7, 8, 9, 10] [1, 2, 3, 4, 5, 6, 7, 8, 9, 10] 5 6 (fun i => i / 3 % 2)
      (fun _ _ _ => some true) = .ok 2 ∧
    ∃ d : Nat → Nat, (∀ j, d j < 2) ∧ pospaceRun (q := 103) 3 7 4 2 [1, 2, 3, 4, 5, 6, 7, 8, 9, 10] [1, 2, 3, 4, 5, 6, 7, 8, 9, 10] 5 6 d
      (fun _ _ _ => some true) = .error .assertion := by
  refine ⟨by decide +kernel, fun i => (i % 3 + 1) % 2, fun j => Nat.mod_lt _ (by omega), by decide +kernel⟩

end PoS
