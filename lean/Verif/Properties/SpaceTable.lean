import Verif.Model.SpaceRelease
import Verif.Properties.SpaceAnswers
import Verif.Properties.SpaceCount

/-
C103: what a proof-of-space round says about any table file, in a debug and in a release build.
C104: the number of challenges a given table survives.
-/

namespace PoS

set_option linter.unusedSectionVars false

variable {q : Nat}

/-! ### the file as one number -/

theorem bitsVal_bytesToBits (f : Bytes) : bitsVal (bytesToBits f) = leNat f := by
  induction f with
  | nil => rfl
  | cons b f ih =>
    rw [bytesToBits_cons, bitsVal_append, bitsVal_bitsOf, ih, bitsOf_length, leNat,
      Nat.mod_eq_of_lt (UInt8.toNat_lt b)]
    rfl

theorem bitsVal_take (l : List Bool) (k : Nat) (h : k ≤ l.length) : bitsVal (l.take k) = bitsVal l % 2 ^ k := by
  have := bitsVal_append (l.take k) (l.drop k)
  rw [List.take_append_drop, List.length_take, Nat.min_eq_left h] at this
  have hlt := bitsVal_lt (l.take k)
  rw [List.length_take, Nat.min_eq_left h] at hlt
  rw [this, Nat.add_mul_mod_self_left, Nat.mod_eq_of_lt hlt]

theorem bitsVal_drop (l : List Bool) (k : Nat) (h : k ≤ l.length) : bitsVal (l.drop k) = bitsVal l / 2 ^ k := by
  have := bitsVal_append (l.take k) (l.drop k)
  rw [List.take_append_drop, List.length_take, Nat.min_eq_left h] at this
  have hlt := bitsVal_lt (l.take k)
  rw [List.length_take, Nat.min_eq_left h] at hlt
  rw [this, Nat.add_mul_div_left _ _ (by positivity), Nat.div_eq_of_lt hlt, Nat.zero_add]

theorem bits_getElem? (l : List Bool) (k : Nat) (h : k < l.length) : l[k]? = some ((bitsVal l).testBit k) := by
  rw [← bitsOf_getElem? l.length (bitsVal l) k h, bitsOf_bitsVal]

theorem readSlot_num {file : Bytes} {n yn : Nat} (hin : (n + 1) * (yn + 1) ≤ 8 * file.length) :
    ∃ bits, readSlot file n yn = .ok bits ∧ bits.length = n + 1 ∧
      bits[n]? = some ((leNat file).testBit ((n + 1) * yn + n)) ∧
      bitsVal (bits.take n) = leNat file / 2 ^ ((n + 1) * yn) % 2 ^ n := by
  rw [Nat.mul_succ] at hin
  obtain ⟨bits, h1, h2, h3⟩ := readSlot_spec (file := file) (n := n) (yn := yn) hin
  have hl : (bytesToBits file).length = 8 * file.length := by simp
  refine ⟨bits, h1, h3, ?_, ?_⟩
  · rw [h2, List.getElem?_take_of_lt (by omega), List.getElem?_drop, bits_getElem? _ _ (by omega), bitsVal_bytesToBits]
  · rw [bitsVal_take _ _ (by omega), h2, bitsVal_take _ _ (by rw [List.length_drop]; omega), bitsVal_drop _ _ (by omega),
      bitsVal_bytesToBits, Nat.mod_mod_of_dvd _ (pow_dvd_pow 2 (by omega))]

theorem respLoop_any {file : Bytes} {n want : Nat} (h64 : n < 64) (flag : Nat → Bool) (val : Nat → Nat) (chs : List Nat)
    (hread : ∀ y ∈ chs, ∃ bits, readSlot file n y = .ok bits ∧ bits.length = n + 1 ∧ bits[n]? = some (flag y) ∧
      bitsVal (bits.take n) = val y)
    (i : Nat) (s : RespState q) (hc : s.count < want) :
    respLoop file n want chs i s =
      (let hits := ((chs.zipIdx i).filter (fun ci => flag ci.1)).take (want - s.count)
       .ok ⟨s.xs ++ hits.map (fun ci => ((val ci.1 : Nat) : ZMod q)), s.idxs ++ hits.map Prod.snd, s.count + hits.length⟩) := by
  induction chs generalizing i s with
  | nil => simp [respLoop]
  | cons y chs ih =>
    obtain ⟨bits, hr, hl, hf, hv⟩ := hread y (by simp)
    have ih := ih (fun z hz => hread z (by simp [hz]))
    unfold respLoop
    rw [hr, bind_ok, (at!_eq_ok.mpr hf), bind_ok]
    cases hy : flag y with
    | false =>
      rw [if_neg (by simp)]
      show (if s.count = want then _ else respLoop file n want chs (i + 1) s) = _
      rw [if_neg (by omega), ih (i + 1) s hc]
      simp [List.zipIdx_cons, hy]
    | true =>
      have hsl : slice! bits 0 n = .ok (bits.take n) := by
        unfold slice!
        rw [if_pos (by omega), Nat.sub_zero, List.drop_zero]
      rw [if_pos rfl, hsl, bind_ok, bitsToUsize_eq _ (by rw [List.length_take]; omega), bind_ok, hv]
      show (if s.count + 1 = want then _ else respLoop file n want chs (i + 1) _) = _
      by_cases hw : s.count + 1 = want
      · rw [if_pos hw, show want - s.count = 1 by omega]
        simp [List.zipIdx_cons, hy]
      · rw [if_neg hw, ih (i + 1) _ (by simp only; omega)]
        simp only [List.zipIdx_cons, List.filter_cons, hy, if_true]
        rw [show want - s.count = (want - (s.count + 1)) + 1 by omega, List.take_succ_cons]
        simp
        omega

/-- `response_1` on any table file that is long enough for the challenges.  Read as one
little-endian number `T` the file is a sequence of cells of `n + 1` bits, the topmost of them the
flag.  The answers are the first `want` challenges whose cell has the flag set, in order, with their
positions, the contents of the cells and the hash of these. -/
theorem C103_answers {n : Nat} (h64 : n < 64) (hcs : List (ZMod q)) (hh : 10 ≤ hcs.length) (key : ZMod q) (file : Bytes)
    (challenges : List Nat) (hfit : ∀ c ∈ challenges, (n + 1) * (c + 1) ≤ 8 * file.length) (want : Nat) (hw : 0 < want)
    (T : Nat) (hT : T = leNat file) (hits : List (Nat × Nat))
    (hhits : hits = (challenges.zipIdx.filter (fun ci => T.testBit ((n + 1) * ci.1 + n))).take want) :
    ∃ h, response1 file challenges key hcs n want =
        .ok (hits.map (fun ci => ((T / 2 ^ ((n + 1) * ci.1) % 2 ^ n : Nat) : ZMod q)), hits.map Prod.snd, h) ∧
      multiMimc5Hash (hits.map (fun ci => ((T / 2 ^ ((n + 1) * ci.1) % 2 ^ n : Nat) : ZMod q))) key hcs = .ok h := by
  subst hT
  have hloop := respLoop_any (q := q) (want := want) h64 (fun c => (leNat file).testBit ((n + 1) * c + n))
    (fun c => leNat file / 2 ^ ((n + 1) * c) % 2 ^ n) challenges (file := file) (fun y hy => readSlot_num (hfit y hy)) 0
    { xs := [], idxs := [], count := 0 } hw
  simp only [Nat.sub_zero, List.nil_append, Nat.zero_add] at hloop
  rw [← hhits] at hloop
  obtain ⟨h, hm⟩ := multiMimc5Hash_total (hits.map (fun ci => ((leNat file / 2 ^ ((n + 1) * ci.1) % 2 ^ n : Nat) : ZMod q))) key
    hcs hh
  refine ⟨h, ?_, hm⟩
  unfold response1
  rw [hloop, bind_ok]
  simp only [hm, bind_ok]
  rfl

/-- A file of four bytes as a table of eight cells of four bits: cells 1 and 5 hold 6 and 3. -/
example : ∃ h, response1 (q := 103) [0xe0, 0, 0xb0, 0] [4, 5, 1, 1] 5 [1, 2, 3, 4, 5, 6, 7, 8, 9, 10] 3 3 =
    .ok ([3, 6, 6], [1, 2, 3], h) := by
  obtain ⟨h, e, -⟩ := C103_answers (q := 103) (n := 3) (by norm_num) [1, 2, 3, 4, 5, 6, 7, 8, 9, 10] (by simp) 5
    [0xe0, 0, 0xb0, 0] [4, 5, 1, 1] (by decide) 3 (by norm_num) _ rfl _ rfl
  exact ⟨h, e⟩

/-! ### rounds -/

theorem hits_mem {challenges : List Nat} {p : Nat × Nat → Bool} {want : Nat} {ci : Nat × Nat}
    (h : ci ∈ (challenges.zipIdx.filter p).take want) : challenges[ci.2]? = some ci.1 ∧ p ci = true := by
  have h := List.mem_of_mem_take h
  obtain ⟨h1, h2⟩ := List.mem_filter.mp h
  exact ⟨List.mk_mem_zipIdx_iff_getElem?.mp h1, h2⟩

theorem length_filter_zipIdx (p : Nat → Bool) (l : List Nat) (i : Nat) :
    ((l.zipIdx i).filter (fun ci => p ci.1)).length = l.countP p := by
  induction l generalizing i with
  | nil => rfl
  | cons y l ih =>
    rw [List.zipIdx_cons, List.filter_cons, List.countP_cons]
    cases h : p y <;> simp [ih]

theorem cast_inj_of_lt [NeZero q] {n a b : Nat} (hnq : 2 ^ n ≤ q) (ha : a < 2 ^ n) (hb : b < 2 ^ n) :
    ((a : ZMod q) = (b : ZMod q)) ↔ a = b := by
  constructor
  · intro h
    have := congrArg ZMod.val h
    rwa [ZMod.val_natCast_of_lt (by omega), ZMod.val_natCast_of_lt (by omega)] at this
  · rintro rfl; rfl

/-- The outcome of a round in a debug build, for any table file of at least the full length: success
exactly if at least `want` challenges hit a flagged cell and the first `want` of these cells hold an
input that maps to the cell; a failed assertion otherwise. -/
theorem C103_round [NeZero q] {n ySize : Nat} (h1 : 1 ≤ n) (h64 : n < 64) (hny : n ≤ ySize) (h256 : ySize ≤ 256)
    (hq : q ≤ 2 ^ ySize) (hnq : 2 ^ n ≤ q) {dcs hcs : List (ZMod q)} (hd : dcs.length = 10) (hh : hcs.length = 10)
    (key m : ZMod q) (chCount want : Nat) (hw : 0 < want) (draw : Nat → Nat)
    (prove : CS (ZMod q) → CS (ZMod q) → List (ZMod q) → Option Bool)
    (hprove : ∀ pk s, pk.nInst = s.nInst → pk.nWit = s.nWit → pk.cons = s.cons → Satisfies s.cons (s.inst, s.wit) →
      prove pk s s.inst ≠ none)
    (file : Bytes) (hlen : (n + 1) * 2 ^ n ≤ 8 * file.length) (T : Nat) (hT : T = leNat file)
    (flag right : Nat → Prop) (hflag : ∀ c, flag c ↔ T.testBit ((n + 1) * c + n) = true)
    (hright : ∀ c, right c ↔ ∃ Y, mimc5Df (((T / 2 ^ ((n + 1) * c) % 2 ^ n : Nat) : ZMod q) + key) m dcs = .ok Y ∧
      Y.val % 2 ^ n = c)
    [DecidablePred flag] [DecidablePred right] :
    ∃ challenges, spaceChallenges draw chCount n = .ok challenges ∧ challenges.length = chCount ∧
      spaceRound n ySize chCount want dcs hcs key m file draw prove =
        if want ≤ challenges.countP (fun c => decide (flag c)) ∧
          ∀ c ∈ (challenges.filter (fun c => decide (flag c))).take want, right c
        then .ok want else .error .assertion := by
  obtain ⟨challenges, hc, hcl, hlt⟩ := C41_in_range draw chCount n h64
  refine ⟨challenges, hc, hcl, ?_⟩
  have hfit : ∀ c ∈ challenges, (n + 1) * (c + 1) ≤ 8 * file.length := fun c hcm =>
    (Nat.mul_le_mul_left (n + 1) (hlt c hcm)).trans hlen
  set hits := (challenges.zipIdx.filter (fun ci => T.testBit ((n + 1) * ci.1 + n))).take want with hhits
  obtain ⟨h, hr, hhash⟩ := C103_answers h64 hcs (by omega) key file challenges hfit want hw T hT hits hhits
  obtain ⟨hlen2, -, hidx, -, s, hs, hsat⟩ := C102_any_table h1 hny h256 hq hd hh key m file challenges want hw _ _ h hr
  obtain ⟨pk, hpk, -, hmis⟩ := C49_count_mismatch (q := q) (n := n) (ySize := ySize) h1 hny h256 hd hh want hw
  have hpre : spaceRound n ySize chCount want dcs hcs key m file draw prove =
      (if Satisfies s.cons (s.inst, s.wit) then do
        spaceVerify (pk.nInst + 1) (prove pk s) key m challenges (hits.map Prod.snd) h
        pure (hits.map Prod.snd).length
      else .error .assertion) := by
    unfold spaceRound
    simp only [hc, hr, hpk, hs, bind_ok]
  have hdec : (fun c => decide (flag c)) = (fun c => T.testBit ((n + 1) * c + n)) := by
    funext c
    rw [Bool.eq_iff_iff, decide_eq_true_eq, hflag]
  have hcnt : hits.length = min want (challenges.countP (fun c => decide (flag c))) := by
    rw [hhits, List.length_take, length_filter_zipIdx (fun c => T.testBit ((n + 1) * c + n)), hdec]
  have hfst : hits.map Prod.fst = (challenges.filter (fun c => decide (flag c))).take want := by
    rw [hhits, hdec, List.map_take]
    congr 1
    rw [show (fun ci : Nat × Nat => T.testBit ((n + 1) * ci.1 + n)) = (fun c => T.testBit ((n + 1) * c + n)) ∘ Prod.fst from rfl,
      ← List.filter_map, List.zipIdx_map_fst]
  have hsat' : Satisfies s.cons (s.inst, s.wit) ↔
      ∀ c ∈ (challenges.filter (fun c => decide (flag c))).take want, right c := by
    rw [hsat, ← hfst]
    constructor
    · intro hall c hcm
      obtain ⟨ci, hci, rfl⟩ := List.mem_map.mp hcm
      obtain ⟨i, hi⟩ := List.getElem?_of_mem hci
      obtain ⟨hm1, -⟩ := hits_mem hci
      obtain ⟨Y, hY, hcY⟩ := hall i _ ci.2 ci.1 (by rw [List.getElem?_map, hi]; rfl) (by rw [List.getElem?_map, hi]; rfl) hm1
      refine (hright _).mpr ⟨Y, hY, ?_⟩
      rw [cast_inj_of_lt hnq (hlt _ (List.mem_of_getElem? hm1)) (Nat.mod_lt _ (by positivity))] at hcY
      exact hcY.symm
    · intro hall i x j c hx hj hcc
      rw [List.getElem?_map] at hx hj
      obtain ⟨ci, hci, rfl⟩ := Option.map_eq_some_iff.mp hx
      rw [hci] at hj
      obtain rfl : ci.2 = j := Option.some.inj hj
      have hmem := List.mem_of_getElem? hci
      obtain ⟨hm1, -⟩ := hits_mem hmem
      obtain rfl : ci.1 = c := by rw [hm1] at hcc; exact Option.some.inj hcc
      obtain ⟨Y, hY, hYc⟩ := (hright _).mp (hall ci.1 (List.mem_map.mpr ⟨ci, hmem, rfl⟩))
      exact ⟨Y, hY, by rw [hYc]⟩
  rw [hpre]
  by_cases hok : Satisfies s.cons (s.inst, s.wit)
  · rw [if_pos hok]
    by_cases hle : want ≤ challenges.countP (fun c => decide (flag c))
    · rw [if_pos ⟨hle, hsat'.mp hok⟩]
      rw [Nat.min_eq_left hle] at hcnt
      obtain ⟨e1, e2, e3⟩ := C49_space_shape n ySize want dcs hcs pk s key m _ challenges _ (by rw [List.length_map]; exact hcnt) hpk hs
      have hp := hprove pk s e1 e2 e3 hok
      obtain ⟨g, hg1, hg2, -⟩ := C46_every_statement_provable (q := q) (n := n) (ySize := ySize) h1 hny h256 hd hh want hw
      have hg : g = pk := by rw [hpk] at hg1; exact (congrArg Prod.snd (Except.ok.inj hg1)).symm
      subst hg
      obtain ⟨s', h', e', hh', -, hin⟩ := C45_honest_witness (q := q) h1 hny h256 hq hd hh key m
        (hits.map (fun ci => ((T / 2 ^ ((n + 1) * ci.1) % 2 ^ n : Nat) : ZMod q)))
        ((hits.map Prod.snd).map (fun i => ((challenges[i]?.getD 0 : Nat) : ZMod q))) (by
          rw [List.forall₂_iff_get]
          refine ⟨by simp, fun i hi1 hi2 => ?_⟩
          rw [List.length_map] at hi1
          have hi3 : i < (hits.map Prod.snd).length := by rw [List.length_map]; exact hi1
          have hj := hidx _ (List.getElem_mem hi3)
          obtain ⟨Y, hY, hcY⟩ := hsat.mp hok i _ _ _ (List.getElem?_eq_getElem (by rw [List.length_map]; exact hi1))
            (List.getElem?_eq_getElem hi3) (List.getElem?_eq_getElem hj)
          refine ⟨Y, hY, ?_⟩
          simp only [List.get_eq_getElem, List.getElem_map] at hcY hj ⊢
          rw [List.getElem?_eq_getElem hj, Option.getD_some]
          exact hcY)
      rw [response2_eq hidx, e'] at hs
      obtain rfl : s' = s := congrArg Prod.snd (Except.ok.inj hs)
      have hhash' : h' = h := by rw [hhash] at hh'; exact (Except.ok.inj hh').symm
      have hne : hits.map (fun ci => ((T / 2 ^ ((n + 1) * ci.1) % 2 ^ n : Nat) : ZMod q)) ≠ [] := by
        intro h0
        have := congrArg List.length h0
        rw [List.length_map, hcnt] at this
        simp at this
        omega
      rw [if_neg hne, hhash'] at hin
      rw [(C48_accepts_iff (g.nInst + 1) (prove g s') key m challenges _ h hidx).mpr
        ⟨by rw [List.length_map, hcnt, hg2], ?_⟩, bind_ok, List.length_map, hcnt]
      · rfl
      · rw [← hin]
        exact Option.ne_none_iff_exists'.mp hp
    · rw [if_neg (fun hx => hle hx.1), hmis _ key m challenges _ h (by rw [List.length_map, hcnt]; omega) hidx]
      rfl
  · rw [if_neg hok, if_neg (fun hx => hok (hsat'.mpr hx.2))]

/-- The outcome of a round in a release build, for any table file of at least the full length: success
exactly if at least `want` challenges hit a flagged cell.  What the cells contain does not matter. -/
theorem C103_release_round [NeZero q] {n ySize : Nat} (h1 : 1 ≤ n) (h64 : n < 64) (hny : n ≤ ySize) (h256 : ySize ≤ 256)
    (hq : q ≤ 2 ^ ySize) {dcs hcs : List (ZMod q)} (hd : dcs.length = 10) (hh : hcs.length = 10)
    (key m : ZMod q) (chCount want : Nat) (hw : 0 < want) (draw : Nat → Nat)
    (prove : CS (ZMod q) → CS (ZMod q) → List (ZMod q) → Option Bool) (hprove : ∀ pk s v, prove pk s v ≠ none)
    (file : Bytes) (hlen : (n + 1) * 2 ^ n ≤ 8 * file.length) (T : Nat) (hT : T = leNat file) :
    ∃ challenges, spaceChallenges draw chCount n = .ok challenges ∧ challenges.length = chCount ∧
      spaceRoundR n ySize chCount want dcs hcs key m file draw prove =
        if want ≤ challenges.countP (fun c => T.testBit ((n + 1) * c + n)) then .ok want else .error .assertion := by
  obtain ⟨challenges, hc, hcl, hlt⟩ := C41_in_range draw chCount n h64
  refine ⟨challenges, hc, hcl, ?_⟩
  have hfit : ∀ c ∈ challenges, (n + 1) * (c + 1) ≤ 8 * file.length := fun c hcm =>
    (Nat.mul_le_mul_left (n + 1) (hlt c hcm)).trans hlen
  set hits := (challenges.zipIdx.filter (fun ci => T.testBit ((n + 1) * ci.1 + n))).take want with hhits
  obtain ⟨h, hr, hhash⟩ := C103_answers h64 hcs (by omega) key file challenges hfit want hw T hT hits hhits
  obtain ⟨hlen2, -, hidx, -, s, hs, hsat⟩ := C102_any_table h1 hny h256 hq hd hh key m file challenges want hw _ _ h hr
  obtain ⟨pk, hpk, -, hmis⟩ := C49_count_mismatch (q := q) (n := n) (ySize := ySize) h1 hny h256 hd hh want hw
  have hpre : spaceRoundR n ySize chCount want dcs hcs key m file draw prove =
      (do
        spaceVerify (pk.nInst + 1) (prove pk s) key m challenges (hits.map Prod.snd) h
        pure (hits.map Prod.snd).length) := by
    unfold spaceRoundR
    simp only [hc, hr, hpk, hs, bind_ok]
  have hcnt : hits.length = min want (challenges.countP (fun c => T.testBit ((n + 1) * c + n))) := by
    rw [hhits, List.length_take, length_filter_zipIdx (fun c => T.testBit ((n + 1) * c + n))]
  rw [hpre]
  by_cases hle : want ≤ challenges.countP (fun c => T.testBit ((n + 1) * c + n))
  · rw [if_pos hle]
    rw [Nat.min_eq_left hle] at hcnt
    obtain ⟨g, hg1, hg2, -⟩ := C46_every_statement_provable (q := q) (n := n) (ySize := ySize) h1 hny h256 hd hh want hw
    have hg : g = pk := by rw [hpk] at hg1; exact (congrArg Prod.snd (Except.ok.inj hg1)).symm
    subst hg
    rw [(C48_accepts_iff (g.nInst + 1) (prove g s) key m challenges _ h hidx).mpr
      ⟨by rw [List.length_map, hcnt, hg2], Option.ne_none_iff_exists'.mp (hprove _ _ _)⟩, bind_ok, List.length_map, hcnt]
    rfl
  · rw [if_neg hle, hmis _ key m challenges _ h (by rw [List.length_map, hcnt]; omega) hidx]
    rfl

/-- A whole run is: prepare the table, fill it in, and the round on the resulting file. -/
theorem C103_run_is_round {n ySize chCount want : Nat} (dcs hcs : List (ZMod q)) (key m : ZMod q) (draw : Nat → Nat)
    (prove : CS (ZMod q) → CS (ZMod q) → List (ZMod q) → Option Bool) (file : Bytes)
    (hf : (prepareSpace n >>= fun f => markSpace f key m dcs n) = .ok file) :
    pospaceRun n ySize chCount want dcs hcs key m draw prove =
      spaceRound n ySize chCount want dcs hcs key m file draw prove ∧
    pospaceRunR n ySize chCount want dcs hcs key m draw prove =
      spaceRoundR n ySize chCount want dcs hcs key m file draw prove := by
  obtain ⟨f, h1, h2⟩ := bind_eq_ok.mp hf
  unfold pospaceRun pospaceRunR
  simp only [h1, h2, bind_ok]
  exact ⟨rfl, trivial⟩

theorem leNat_ones (k : Nat) : leNat (List.replicate k 255) = 2 ^ (8 * k) - 1 := by
  induction k with
  | zero => rfl
  | succ k ih =>
    rw [List.replicate_succ, leNat, ih, Nat.mul_succ, pow_add]
    have : 0 < 2 ^ (8 * k) := by positivity
    show 255 + 256 * _ = _
    omega

/-- Release build: a prover who keeps a file of `0xFF` bytes, never evaluating the delay function,
passes every round. -/
theorem C103_ones_pass [NeZero q] {n ySize : Nat} (h1 : 1 ≤ n) (h64 : n < 64) (hny : n ≤ ySize) (h256 : ySize ≤ 256)
    (hq : q ≤ 2 ^ ySize) {dcs hcs : List (ZMod q)} (hd : dcs.length = 10) (hh : hcs.length = 10)
    (key m : ZMod q) (chCount want : Nat) (hw : 0 < want) (hcw : want ≤ chCount) (draw : Nat → Nat)
    (prove : CS (ZMod q) → CS (ZMod q) → List (ZMod q) → Option Bool) (hprove : ∀ pk s v, prove pk s v ≠ none)
    (k : Nat) (hk : (n + 1) * 2 ^ n ≤ 8 * k) :
    spaceRoundR n ySize chCount want dcs hcs key m (List.replicate k 255) draw prove = .ok want := by
  obtain ⟨cs, hc, hl, hr⟩ := C103_release_round h1 h64 hny h256 hq hd hh key m chCount want hw draw prove hprove
    (List.replicate k 255) (by rw [List.length_replicate]; exact hk) _ (leNat_ones k).symm
  obtain ⟨cs', hc', -, hlt⟩ := C41_in_range draw chCount n h64
  obtain rfl : cs = cs' := by rw [hc] at hc'; exact Except.ok.inj hc'
  rw [hr, if_pos]
  rw [List.countP_eq_length.mpr, hl]
  · exact hcw
  · intro c hcm
    rw [Nat.testBit_two_pow_sub_one, decide_eq_true_eq]
    have := Nat.mul_le_mul_left (n + 1) (hlt c hcm)
    rw [Nat.succ_eq_add_one, Nat.mul_add] at this
    omega

/-- The honest prover in a release build: the same outcome as in a debug build (C77). -/
theorem C103_honest [NeZero q] {n ySize : Nat} (h3 : 3 ≤ n) (h64 : n < 64) (hny : n ≤ ySize) (h256 : ySize ≤ 256)
    (hq : q ≤ 2 ^ ySize) {dcs hcs : List (ZMod q)} (hd : dcs.length = 10) (hh : hcs.length = 10) (key m : ZMod q)
    (chCount want : Nat) (hw : 0 < want) (draw : Nat → Nat)
    (prove : CS (ZMod q) → CS (ZMod q) → List (ZMod q) → Option Bool) (hprove : ∀ pk s v, prove pk s v ≠ none) :
    pospaceRunR n ySize chCount want dcs hcs key m draw prove = pospaceRun n ySize chCount want dcs hcs key m draw prove := by
  classical
  obtain ⟨cs0, hcs0, e0⟩ := C77_run h3 h64 hny h256 hq hd hh key m chCount want hw draw prove
    (fun pk s _ _ _ _ => hprove pk s _)
    (fun y => decide (∃ x : Nat, x < 2 ^ n ∧ ∃ Y, mimc5Df ((x : ZMod q) + key) m dcs = .ok Y ∧ Y.val % 2 ^ n = y))
    (fun y _ => by rw [decide_eq_true_eq])
  obtain ⟨challenges, hc, -, hlt⟩ := C41_in_range draw chCount n h64
  obtain rfl : cs0 = challenges := by rw [hcs0] at hc; exact Except.ok.inj hc
  obtain ⟨slot, hslot, look, hlook, hnone, file, h, hf, hr, -⟩ := C39_response key m dcs hd n h3 h64 hcs (by omega)
    cs0 hlt want hw
  obtain ⟨-, -, file', hf', hlen, -⟩ := C38_table key m dcs hd n h3 h64
  obtain rfl : file = file' := by rw [hf] at hf'; exact Except.ok.inj hf'
  obtain ⟨cs1, hcs1, -, e1⟩ := C103_release_round (by omega) h64 hny h256 hq hd hh key m chCount want hw draw prove
    hprove file hlen.ge _ rfl
  obtain rfl : cs0 = cs1 := by rw [hcs0] at hcs1; exact Except.ok.inj hcs1
  obtain ⟨h', hr', -⟩ := C103_answers h64 hcs (by omega) key file cs0 (fun c hcm =>
    (Nat.mul_le_mul_left (n + 1) (hlt c hcm)).trans hlen.ge) want hw _ rfl _ rfl
  rw [hr] at hr'
  have hl := congrArg List.length (congrArg (fun o => o.2.1) (Except.ok.inj hr'))
  simp only [List.length_map, List.length_take] at hl
  rw [length_hits, length_filter_zipIdx (fun c => (leNat file).testBit ((n + 1) * c + n))] at hl
  have hsame : cs0.countP (fun y => (look y).isSome) = cs0.countP (fun y => decide (∃ x : Nat, x < 2 ^ n ∧
      ∃ Y, mimc5Df ((x : ZMod q) + key) m dcs = .ok Y ∧ Y.val % 2 ^ n = y)) := by
    refine List.countP_congr fun y hy => ?_
    rw [decide_eq_true_eq]
    constructor
    · intro hsome
      obtain ⟨x, hx⟩ := Option.isSome_iff_exists.mp hsome
      obtain ⟨hx1, hx2, -⟩ := hlook y x hx
      obtain ⟨Y, hY1, hY2⟩ := hslot x
      exact ⟨x, hx1, Y, hY1, by rw [← hY2, hx2]⟩
    · rintro ⟨x, hx, Y, hY, hYy⟩
      rw [Option.isSome_iff_ne_none]
      intro hn
      obtain ⟨Y', hY1, hY2⟩ := hslot x
      rw [hY] at hY1
      cases hY1
      exact hnone y (hlt y hy) hn x hx (by rw [hY2, hYy])
  rw [hsame] at hl
  rw [(C103_run_is_round dcs hcs key m draw prove file hf).2, e0, e1]
  congr 1
  apply propext
  omega

/-- The run of `C102_two_bits` in a release build: the same wrong answer, and the round is passed. -/
theorem C103_two_bits (prove : CS (ZMod blsR) → CS (ZMod blsR) → List (ZMod blsR) → Option Bool)
    (hprove : ∀ pk s v, prove pk s v ≠ none) :
    pospaceRunR 2 256 2 1 [1, 2, 3, 4, 5, 6, 7, 8, 9, 10] [1, 2, 3, 4, 5, 6, 7, 8, 9, 10] (12 : ZMod blsR) 7
      (fun j => if j = 2 then 0 else 1) prove = .ok 1 := by
  haveI : NeZero blsR := ⟨by decide⟩
  have hc : spaceChallenges (fun j => if j = 2 then 0 else 1) 2 2 = .ok [3, 2] := by decide +kernel
  have hf : (prepareSpace 2 >>= fun f => markSpace f (12 : ZMod blsR) 7 [1, 2, 3, 4, 5, 6, 7, 8, 9, 10] 2) =
      .ok [232, 169] := by decide +kernel
  rw [(C103_run_is_round (ySize := 256) (chCount := 2) (want := 1) _ [1, 2, 3, 4, 5, 6, 7, 8, 9, 10] _ _ _ prove _ hf).2]
  obtain ⟨cs, h1, -, h2⟩ := C103_release_round (q := blsR) (n := 2) (ySize := 256) (by omega) (by omega) (by omega)
    (by omega) (by unfold blsR; norm_num) (dcs := [1, 2, 3, 4, 5, 6, 7, 8, 9, 10]) (hcs := [1, 2, 3, 4, 5, 6, 7, 8, 9, 10])
    rfl rfl 12 7 2 1 (by omega) (fun j => if j = 2 then 0 else 1) prove hprove [232, 169]
    (by decide) _ rfl
  obtain rfl : [3, 2] = cs := by rw [hc] at h1; exact Except.ok.inj h1
  rw [h2, if_pos (by decide +kernel)]

/-- The shipped parameters, release build: 2621440 + 131072 bytes of `0xFF` pass every round. -/
example (dcs hcs : List (ZMod blsR)) (hd : dcs.length = 10) (hh : hcs.length = 10) (key m : ZMod blsR)
    (draw : Nat → Nat)
    (prove : CS (ZMod blsR) → CS (ZMod blsR) → List (ZMod blsR) → Option Bool) (hprove : ∀ pk s v, prove pk s v ≠ none) :
    spaceRoundR SPACE_N Y_SIZE CHALLENGE_COUNT RESPONSE_COUNT dcs hcs key m (List.replicate 2752512 255) draw prove =
      .ok 50 :=
  haveI : NeZero blsR := ⟨by decide⟩
  C103_ones_pass (n := 20) (ySize := Y_SIZE) (by norm_num) (by norm_num) (by norm_num [Y_SIZE]) (by norm_num [Y_SIZE])
    (by norm_num [blsR, Y_SIZE]) hd hh key m 100 50 (by norm_num) (by norm_num) draw prove hprove 2752512 (by norm_num)

/-- Debug build, a table with a right answer (input 1 for cell 1) and a wrong one (input 0 for cell 5).
Challenges 1 and 5: passed; challenges 5 and 1: a failed assertion. -/
example : spaceRound (q := 103) 3 7 2 1 [1, 2, 3, 4, 5, 6, 7, 8, 9, 10] [1, 2, 3, 4, 5, 6, 7, 8, 9, 10] 5 6 [0x90, 0, 0x80, 0]
      (fun j => if j = 0 ∨ j = 3 ∨ j = 5 then 1 else 0) (fun _ _ _ => some true) = .ok 1 ∧
    spaceRound (q := 103) 3 7 2 1 [1, 2, 3, 4, 5, 6, 7, 8, 9, 10] [1, 2, 3, 4, 5, 6, 7, 8, 9, 10] 5 6 [0x90, 0, 0x80, 0]
      (fun j => if j = 0 ∨ j = 2 ∨ j = 3 then 1 else 0) (fun _ _ _ => some true) = .error .assertion := by
  have hd1 : ∃ Y, mimc5Df (((0x800090 / 2 ^ ((3 + 1) * 1) % 2 ^ 3 : Nat) : ZMod 103) + 5) 6
      [1, 2, 3, 4, 5, 6, 7, 8, 9, 10] = .ok Y ∧ Y.val % 2 ^ 3 = 1 := by decide +kernel
  have hd2 : ¬ ∃ Y, mimc5Df (((0x800090 / 2 ^ ((3 + 1) * 5) % 2 ^ 3 : Nat) : ZMod 103) + 5) 6
      [1, 2, 3, 4, 5, 6, 7, 8, 9, 10] = .ok Y ∧ Y.val % 2 ^ 3 = 5 := by decide +kernel
  constructor
  · obtain ⟨cs, h1, -, h2⟩ := C103_round (q := 103) (n := 3) (ySize := 7) (by norm_num) (by norm_num) (by norm_num)
      (by norm_num) (by norm_num) (by norm_num) (dcs := [1, 2, 3, 4, 5, 6, 7, 8, 9, 10])
      (hcs := [1, 2, 3, 4, 5, 6, 7, 8, 9, 10]) rfl rfl 5 6 2 1 (by norm_num)
      (fun j => if j = 0 ∨ j = 3 ∨ j = 5 then 1 else 0) (fun _ _ _ => some true)
      (by intros; simp) [0x90, 0, 0x80, 0] (by decide) 0x800090 (by decide) (fun c => (0x800090).testBit ((3 + 1) * c + 3) = true)
      (fun c => ∃ Y, mimc5Df (((0x800090 / 2 ^ ((3 + 1) * c) % 2 ^ 3 : Nat) : ZMod 103) + 5) 6
        [1, 2, 3, 4, 5, 6, 7, 8, 9, 10] = .ok Y ∧ Y.val % 2 ^ 3 = c) (fun _ => Iff.rfl) (fun _ => Iff.rfl)
    obtain rfl : [1, 5] = cs := by
      rw [show spaceChallenges (fun j => if j = 0 ∨ j = 3 ∨ j = 5 then 1 else 0) 2 3 = .ok [1, 5] by decide +kernel] at h1
      exact Except.ok.inj h1
    have hp : ∀ c ∈ (List.filter (fun c => decide ((0x800090).testBit ((3 + 1) * c + 3) = true)) [1, 5]).take 1,
        ∃ Y, mimc5Df (((0x800090 / 2 ^ ((3 + 1) * c) % 2 ^ 3 : Nat) : ZMod 103) + 5) 6
          [1, 2, 3, 4, 5, 6, 7, 8, 9, 10] = .ok Y ∧ Y.val % 2 ^ 3 = c := by
      rw [show (List.filter (fun c : Nat => decide ((0x800090 : Nat).testBit ((3 + 1) * c + 3) = true)) [1, 5]).take 1 = [1] by
        decide +kernel]
      simpa using hd1
    rw [h2, if_pos ⟨by decide +kernel, hp⟩]
  · obtain ⟨cs, h1, -, h2⟩ := C103_round (q := 103) (n := 3) (ySize := 7) (by norm_num) (by norm_num) (by norm_num)
      (by norm_num) (by norm_num) (by norm_num) (dcs := [1, 2, 3, 4, 5, 6, 7, 8, 9, 10])
      (hcs := [1, 2, 3, 4, 5, 6, 7, 8, 9, 10]) rfl rfl 5 6 2 1 (by norm_num)
      (fun j => if j = 0 ∨ j = 2 ∨ j = 3 then 1 else 0) (fun _ _ _ => some true)
      (by intros; simp) [0x90, 0, 0x80, 0] (by decide) 0x800090 (by decide) (fun c => (0x800090).testBit ((3 + 1) * c + 3) = true)
      (fun c => ∃ Y, mimc5Df (((0x800090 / 2 ^ ((3 + 1) * c) % 2 ^ 3 : Nat) : ZMod 103) + 5) 6
        [1, 2, 3, 4, 5, 6, 7, 8, 9, 10] = .ok Y ∧ Y.val % 2 ^ 3 = c) (fun _ => Iff.rfl) (fun _ => Iff.rfl)
    obtain rfl : [5, 1] = cs := by
      rw [show spaceChallenges (fun j => if j = 0 ∨ j = 2 ∨ j = 3 then 1 else 0) 2 3 = .ok [5, 1] by decide +kernel] at h1
      exact Except.ok.inj h1
    rw [h2, if_neg]
    rintro ⟨-, h⟩
    exact hd2 (h 5 (by decide +kernel))

end PoS
