import Verif.Proofs.Release
import Verif.Properties.Sealing

/-
C89, C90: the static dependency rules in a release build, where `usize` arithmetic wraps around, and
what sealing, unsealing and random access do there.
-/

namespace PoS

/-! ### C89: the dependency rules -/

/-- Whatever the dependency functions return in a debug build they also return in a release build. -/
theorem C89_agrees (num index count mode : Nat) (hn : num ≤ 2 ^ 63) (hi : index < num) (l : List Nat) :
    (longDepend index count mode = .ok l → longDependR index count mode = .ok l) ∧
    (shortDepend num index count mode = .ok l → shortDependR num index count mode = .ok l) :=
  ⟨longDepend_agrees, shortDepend_agrees hn hi⟩

/-- The hypotheses hold for calls that return, and the lists are not empty. -/
example : longDepend 10 3 2 = .ok [8, 7, 5] ∧ longDependR 10 3 2 = .ok [8, 7, 5] ∧
    shortDepend 10 4 1 2 = .ok [2] ∧ shortDependR 10 4 1 2 = .ok [2] := by decide +kernel

/-- Long dependency modes 2 and 3 in a release build: the positions `index - 1 - 2^i` with `i < 64`
that exist, followed by one copy of the preceding index for every further `i`; no panic. -/
theorem C89_long_modes (index count : Nat) (hc : count ≤ 2 ^ 32) (hi : index ≤ 10 * 2 ^ 32) :
    longDependR index count 2 =
      .ok (((List.range (min count 64)).filter (fun i => decide (2 ^ i < index))).map (fun i => index - 1 - 2 ^ i) ++
        (if index = 0 then [] else List.replicate (count - 64) (index - 1))) ∧
    longDependR index count 3 =
      .ok (((List.range (min (index / 10) 64)).filter (fun i => decide (2 ^ i < index))).map (fun i => index - 1 - 2 ^ i) ++
        (if index = 0 then [] else List.replicate (index / 10 - 64) (index - 1))) := by
  constructor
  · exact longMode2R_eq index count hc
  · exact longMode3R_eq index hi

/-- Index 670 panics in a debug build; in a release build block 669 is listed three times at the end. -/
example : longDepend 670 0 3 = .error .overflow ∧
    longDependR 670 0 3 = .ok [668, 667, 665, 661, 653, 637, 605, 541, 413, 157, 669, 669, 669] := by decide +kernel

/-- Short dependency mode 2 in a release build follows the rule announced in its comment,
`-1-2^0, -1+2^1, -1-2^2, -1+2^3, …`, up to the first position outside the range. -/
theorem C89_short_mode_2 (num index count : Nat) (hn : num ≤ 2 ^ 63) (hi : index < num) :
    shortDependR num index count 2 =
      .ok ((((List.range count).map
        (fun i => (index : Int) - 1 + (if i % 2 = 0 then -2 ^ i else 2 ^ i))).takeWhile
          (fun x => decide (0 ≤ x ∧ x < (num : Int)))).map Int.toNat) :=
  shortMode2R_eq hn hi count

/-- The expected value of the test the authors left commented out (depend.rs 347-356) is the result of
a release build; a debug build panics. -/
example : shortDependR 13 5 4 2 = .ok [3, 6, 0, 12] ∧ shortDepend 13 5 4 2 = .error .overflow := by decide +kernel

/-- The other modes compute the same in both profiles. -/
theorem C89_other_modes (num index count mode : Nat) :
    (mode ≠ 2 → mode ≠ 3 → longDependR index count mode = longDepend index count mode) ∧
    (mode ≠ 2 → shortDependR num index count mode = shortDepend num index count mode) := by
  constructor
  · intro h2 h3
    unfold longDependR longDepend
    rw [if_neg h2, if_neg h3, if_neg h2, if_neg h3]
  · intro h2
    unfold shortDependR shortDepend
    rw [if_neg h2, if_neg h2]

example : longDependR 10 3 1 = .ok [9, 7, 5] ∧ shortDependR 8 2 4 1 = .ok [1, 3, 5, 7] := by decide +kernel

/-! ### C90: storage in a release build -/

/-- The long dependencies of a call of `seal` in a release build. -/
def longOfR (H : Bytes → Bytes) (params : PosPara) (n : Nat) : Bytes → Nat → List Nat :=
  if params.modeL = 0 then hashLong H n params.cntL
  else if params.modeL = 2 then fun _ k => wrappedPowers k params.cntL
  else if params.modeL = 3 then fun _ k => wrappedPowers k (k / 10)
  else fun _ => staticLong params.modeL params.cntL

/-- The short dependencies of a call of `seal` in a release build. -/
def shortOfR (H : Bytes → Bytes) (params : PosPara) (n c : Nat) : Bytes → Nat → List Nat :=
  if params.modeS = 0 then hashShort H c params.cntS
  else if params.modeS = 2 then fun _ j => alternatingList n j params.cntS
  else if params.modeS = 1 then fun _ => staticShort n params.cntS else fun _ _ => []

/-- The description that belongs to a call of `seal` in a release build. -/
def describesR (S : Sealing) (H : Bytes → Bytes) (params : PosPara) (p n c : Nat) (iv : Bytes) : Prop :=
  S.H = H ∧ S.enc = encode p params.vdeRounds ∧ S.p = p ∧ S.unitPl = params.unitPl ∧ S.c = c ∧
  S.rounds = params.sealRounds ∧ S.iv = iv ∧ S.long = longOfR H params n ∧ S.short = shortOfR H params n c

theorem describesR_sealingOf {S : Sealing} {H : Bytes → Bytes} {params : PosPara} {p n c : Nat} {iv : Bytes}
    (h : describesR S H params p n c iv) :
    S = sealingOf H params p c iv (longOfR H params n) (shortOfR H params n c) := by
  obtain ⟨h1, h2, h3, h4, h5, h6, h7, h8, h9⟩ := h
  obtain ⟨_, _, _, _, _, _, _, _, _⟩ := S
  simp only at h1 h2 h3 h4 h5 h6 h7 h8 h9
  subst h1; subst h2; subst h3; subst h4; subst h5; subst h6; subst h7; subst h8; subst h9
  rfl

/-- Which positions of the alternating rule on `n` positions lie inside a block of `c` units. -/
theorem alternatingList_inside {n cnt c : Nat} (hcn : c ≤ n) :
    (∀ j < c, ∀ i ∈ alternatingList n j cnt, i < c) ↔ c = n ∨ cnt ≤ 1 ∨ c ≤ 2 := by
  constructor
  · intro h
    by_contra hcon
    have h1 : AltIn n (c - 1) 0 := by unfold AltIn alternating; norm_num; omega
    have h2 : AltIn n (c - 1) 1 := by unfold AltIn alternating; norm_num; omega
    have hmem : c ∈ alternatingList n (c - 1) 2 := by
      rw [alternatingList_succ, if_pos (fun i hi => by
        rcases (show i = 0 ∨ i = 1 by omega) with rfl | rfl
        exacts [h1, h2])]
      have : (alternating (c - 1) 1).toNat = c := by unfold alternating; norm_num; omega
      rw [this]
      simp
    have hpre : ∀ m, 2 ≤ m → c ∈ alternatingList n (c - 1) m := by
      intro m hm
      induction m, hm using Nat.le_induction with
      | base => exact hmem
      | succ m hm ih =>
        rw [alternatingList_succ]
        split
        · exact List.mem_append_left _ ih
        · exact ih
    have := h (c - 1) (by omega) c (hpre cnt (by omega))
    omega
  · rintro h j hj i hi
    obtain ⟨e, he, hin, hie⟩ := alternatingList_mem hi
    rcases h with rfl | h | h
    · have := hin.2
      rw [← hie] at this
      exact_mod_cast this
    · have : e = 0 := by omega
      subst this
      unfold alternating at hie
      norm_num at hie
      omega
    · have h0 : ¬ AltIn n j 0 := by unfold AltIn alternating; norm_num; omega
      have hnil : ∀ m, alternatingList n j m = [] := by
        intro m
        induction m with
        | zero => rfl
        | succ m ih => rw [alternatingList_succ, if_neg (fun h => h0 (h 0 (by omega))), ih]
      rw [hnil] at hi
      simp at hi

theorem longDependR_staticLong {mode cnt k : Nat} (hc : mode = 2 → cnt ≤ 2 ^ 32) (hk : k ≤ 10 * 2 ^ 32) :
    longDependR k cnt mode = .ok (if mode = 2 then wrappedPowers k cnt else if mode = 3 then wrappedPowers k (k / 10)
      else staticLong mode cnt k) := by
  by_cases m2 : mode = 2
  · rw [if_pos m2, m2]
    exact longMode2R_eq k cnt (hc m2)
  · rw [if_neg m2]
    by_cases m3 : mode = 3
    · rw [if_pos m3, m3]
      exact longMode3R_eq k hk
    · rw [if_neg m3, (C89_other_modes 0 k cnt mode).1 m2 m3]
      exact staticLong_ok (n := k + 1) (fun h => absurd h m2) (fun h => absurd h m3) k (by omega)

theorem longOfR_is {H : Bytes → Bytes} (hH : ∀ x, (H x).length = 32) {params : PosPara} {n : Nat}
    (h0 : params.modeL = 0 → LongCountOk n params.cntL) (hz : ReleaseSizes params n) :
    ∃ t, idxsLOfR params n = .ok t ∧ LongIs H params n t (longOfR H params n) := by
  unfold idxsLOfR longOfR
  by_cases hL : params.modeL = 0
  · rw [if_neg (by simp [hL]), if_pos hL]
    exact ⟨[], rfl, longIs_hash hH hL (h0 hL)⟩
  · rw [if_pos hL, if_neg hL]
    obtain ⟨t, ht, -, hti⟩ := table_of (f := fun k => longDependR k params.cntL params.modeL) (n := n)
      (fun k hk => longDependR_staticLong (mode := params.modeL) (cnt := params.cntL) hz.1 (by have := hz.2; omega))
    refine ⟨t, ht, ?_⟩
    have hlt : ∀ k < n, ∀ i ∈ (if params.modeL = 2 then wrappedPowers k params.cntL
        else if params.modeL = 3 then wrappedPowers k (k / 10) else staticLong params.modeL params.cntL k), i < k := by
      intro k hk
      exact longDependR_lt hz.1 (fun _ => by have := hz.2; omega)
        (longDependR_staticLong (mode := params.modeL) (cnt := params.cntL) hz.1 (by have := hz.2; omega))
    by_cases m2 : params.modeL = 2
    · simp only [if_pos m2] at hti hlt ⊢
      exact longIs_table hL hti hlt
    · by_cases m3 : params.modeL = 3
      · simp only [if_neg m2, if_pos m3] at hti hlt ⊢
        exact longIs_table hL hti hlt
      · simp only [if_neg m2, if_neg m3] at hti hlt ⊢
        exact longIs_table hL hti hlt

theorem shortDependR_eq {mode cnt n j : Nat} (hn : n ≤ 2 ^ 63) (hj : j < n) :
    shortDependR n j cnt mode = .ok (if mode = 2 then alternatingList n j cnt
      else if mode = 1 then staticShort n cnt j else []) := by
  by_cases m2 : mode = 2
  · rw [if_pos m2, m2]
    exact shortMode2R_eq hn hj cnt
  · rw [if_neg m2, (C89_other_modes n j cnt mode).2 m2]
    exact shortDepend_eq (fun h => absurd h m2) j

theorem shortOfR_is {H : Bytes → Bytes} (hH : ∀ x, (H x).length = 32) {params : PosPara} {n c : Nat} (hc0 : 0 < c)
    (hn : n ≤ 2 ^ 63) (h0 : params.modeS = 0 → ShortCountOk c params.cntS) (hcn : params.modeS ≠ 0 → c ≤ n)
    (h1 : params.modeS = 1 → c = n ∨ params.cntS = 0 ∨ (params.cntS = 1 ∧ 2 ≤ c))
    (h2 : params.modeS = 2 → c = n ∨ params.cntS ≤ 1 ∨ c ≤ 2) :
    ∃ t, idxsSOfR params n = .ok t ∧ ShortIs H params c t (shortOfR H params n c) := by
  unfold idxsSOfR shortOfR
  by_cases hS : params.modeS = 0
  · rw [if_neg (by simp [hS]), if_pos hS]
    exact ⟨[], rfl, shortIs_hash hH hS hc0 (h0 hS)⟩
  · rw [if_pos hS, if_neg hS]
    obtain ⟨t, ht, -, hti⟩ := table_of (f := fun j => shortDependR n j params.cntS params.modeS) (n := n)
      (fun j hj => shortDependR_eq (mode := params.modeS) (cnt := params.cntS) hn hj)
    refine ⟨t, ht, ?_⟩
    have hi := hcn hS
    by_cases m2 : params.modeS = 2
    · rw [if_pos m2]
      simp only [if_pos m2] at hti
      exact shortIs_table hS (fun j hj => hti j (by omega)) ((alternatingList_inside hi).mpr (h2 m2))
    · rw [if_neg m2]
      by_cases hm : params.modeS = 1
      · rw [if_pos hm]
        simp only [if_neg m2, if_pos hm] at hti
        exact shortIs_table hS (fun j hj => hti j (by omega)) ((staticShort_inside hc0 hi).mpr (h1 hm))
      · rw [if_neg hm]
        simp only [if_neg m2, if_neg hm] at hti
        exact shortIs_table hS (f := fun _ => []) (fun j hj => hti j (by omega)) (fun j _ i hi => by simp at hi)

/-- A run that completes in a debug build completes with the same result in a release build: sealing,
unsealing, preparing a block for the verifier and batch unsealing. -/
theorem C90_same_runs (H : Bytes → Bytes) (params : PosPara) (p n c : Nat) (cfg : Config params p n c)
    (hn : n ≤ 2 ^ 63) (hc : c ≤ 2 ^ 63) (file iv : Bytes) :
    (∀ st, sealFile H params file (p : Int) iv = .ok st → sealFileR H params file (p : Int) iv = .ok st) ∧
    (∀ out, unsealFile H params file (p : Int) iv = .ok out → unsealFileR H params file (p : Int) iv = .ok out) ∧
    (∀ k pr, singleUnsealPrepare H params file k = .ok pr → singleUnsealPrepareR H params file k = .ok pr) ∧
    (∀ idxs blocks befores deps outs, batchUnseal H params idxs blocks befores deps (p : Int) iv = .ok outs →
      batchUnsealR H params idxs blocks befores deps (p : Int) iv = .ok outs) := by
  refine ⟨fun st h => ?_, fun out h => ?_, fun k pr h => ?_, fun idxs blocks befores deps outs h => ?_⟩
  · rw [sealFile_eq cfg] at h
    obtain ⟨L, S, hL, hS, hrun⟩ := sealPrefix_eq cfg h
    unfold sealFileR
    rw [cfg.div, bind_ok, idxsLOf_agrees hL, bind_ok, idxsSOf_agrees hn hS, bind_ok]
    exact hrun
  · unfold unsealFile at h
    rw [cfg.div, bind_ok] at h
    unfold unsealFrom at h
    rw [cfg.div, bind_ok, bind_eq_ok] at h
    obtain ⟨L, hL, h⟩ := h
    rw [bind_eq_ok] at h
    obtain ⟨S, hS, h⟩ := h
    unfold unsealFileR
    rw [cfg.div, bind_ok, idxsLOf_agrees hL, bind_ok, idxsSOf_agrees hn hS, bind_ok]
    exact h
  · unfold singleUnsealPrepare at h
    simp only [] at h
    rw [bind_eq_ok] at h
    obtain ⟨us, hus, h⟩ := h
    rw [cfg.div, bind_ok, bind_eq_ok] at h
    obtain ⟨L, hL, h⟩ := h
    unfold singleUnsealPrepareR
    simp only []
    rw [hus, bind_ok, cfg.div, bind_ok, idxsLOf_agrees hL, bind_ok]
    exact h
  · unfold batchUnseal at h
    rw [batchIdxsS_eq cfg, bind_eq_ok] at h
    obtain ⟨S, hS, h⟩ := h
    unfold batchUnsealR
    rw [batchIdxsSR_eq cfg, idxsSOf_agrees hc hS, bind_ok]
    exact h

/-- A configuration in which these runs complete in a debug build, with static long dependencies. -/
example : (match copyAndPad (toyFile 378) 378 63 with
    | .ok padded => (match sealFile toyHash (toyParams 3 2 2 0 3 4 1) padded P_512 [1, 2, 3],
        sealFileR toyHash (toyParams 3 2 2 0 3 4 1) padded P_512 [1, 2, 3] with
      | .ok s, .ok t => decide (s.file = t.file ∧ s.file ≠ padded)
      | _, _ => false)
    | _ => false) = true := by decide +kernel

/-- With hash-chosen dependencies nothing depends on the profile, panics included: `seal` and `unseal` if both
kinds are hash-chosen, `single_unseal_prepare` if the long ones are, `batch_unseal` if the short ones are; for
every parameter set, consistent or not. -/
theorem C90_hash_modes (H : Bytes → Bytes) (params : PosPara) (file iv : Bytes) (key : Int) :
    (params.modeL = 0 → params.modeS = 0 → sealFileR H params file key iv = sealFile H params file key iv ∧
      unsealFileR H params file key iv = unsealFile H params file key iv) ∧
    (params.modeL = 0 → ∀ k, singleUnsealPrepareR H params file k = singleUnsealPrepare H params file k) ∧
    (params.modeS = 0 → ∀ idxs blocks befores deps, batchUnsealR H params idxs blocks befores deps key iv =
      batchUnseal H params idxs blocks befores deps key iv) := by
  have hl : params.modeL = 0 → ∀ n, idxsLOfR params n = idxsLOf params n := by
    intro h n
    unfold idxsLOfR idxsLOf
    rw [if_neg (by simp [h]), if_neg (by simp [h])]
  have hs : params.modeS = 0 → ∀ n, idxsSOfR params n = idxsSOf params n := by
    intro h n
    unfold idxsSOfR idxsSOf
    rw [if_neg (by simp [h]), if_neg (by simp [h])]
  refine ⟨fun h1 h2 => ⟨?_, ?_⟩, fun h1 k => ?_, fun h2 idxs blocks befores deps => ?_⟩
  · unfold sealFileR sealFile
    simp only [hl h1, hs h2]
    cases hd : div! params.dataL params.blockL with
    | error e => rfl
    | ok n =>
      rw [bind_ok, bind_ok]
      unfold sealPrefix
      rw [hd]
      rfl
  · unfold unsealFileR unsealFile
    simp only [hl h1, hs h2]
    cases hd : div! params.dataL params.blockL with
    | error e => rfl
    | ok n =>
      rw [bind_ok, bind_ok]
      unfold unsealFrom
      rw [hd]
      rfl
  · unfold singleUnsealPrepareR singleUnsealPrepare
    simp only [hl h1]
  · unfold batchUnsealR batchUnseal batchIdxsSR batchIdxsS
    rw [if_neg (by simp [h2]), if_neg (by simp [h2])]

/-- A run with a modulus of zero, which panics in both profiles. -/
example : sealFileR toyHash (toyParams 3 3 0 0 0 4 1) [] 0 [] = .error .zero ∧
    sealFileR toyHash (toyParams 3 3 0 0 0 4 1) [] 0 [] = sealFile toyHash (toyParams 3 3 0 0 0 4 1) [] 0 [] :=
  ⟨by decide +kernel, (C90_hash_modes ..).1 rfl rfl |>.1⟩

/-- Sealing in a release build, in all modes that work: the exact sealed file, as in C64 but with the
dependency lists of the release build. -/
theorem C90_seal_exact (H : Bytes → Bytes) (hH : ∀ x, (H x).length = 32) (params : PosPara)
    (p n c : Nat) (cfg : Config params p n c) (hz : ReleaseSizes params n)
    (h0L : params.modeL = 0 → LongCountOk n params.cntL) (h0S : params.modeS = 0 → ShortCountOk c params.cntS) (hcn : params.modeS ≠ 0 → c ≤ n)
    (h1 : params.modeS = 1 → c = n ∨ params.cntS = 0 ∨ (params.cntS = 1 ∧ 2 ≤ c))
    (h2 : params.modeS = 2 → c = n ∨ params.cntS ≤ 1 ∨ c ≤ 2)
    (file iv : Bytes) (hlen : n * params.blockPl ≤ file.length)
    (hu : UnitsBelow params p n c file) (S : Sealing) (hd : describesR S H params p n c iv) :
    ∃ st, sealFileR H params file (p : Int) iv = .ok st ∧
      (∀ k < n, readFile st.file (k * params.blockPl) params.blockPl =
        ((S.sealedBlocks (fun k => (List.range c).map
          (fun j => readFile file ((k * c + j) * params.unitPl) params.unitPl)) n).getD k []).flatten) ∧
      st.ids = (List.range n).map (fun k => H (readFile st.file (k * params.blockPl) params.blockPl)) ∧
      st.file.length = file.length ∧ ∀ i, n * params.blockPl ≤ i → st.file[i]? = file[i]? := by
  rw [describesR_sealingOf hd]
  obtain ⟨tL, hl, hlong⟩ := longOfR_is hH h0L hz
  obtain ⟨tS, hs, hshort⟩ := shortOfR_is hH cfg.c_pos (by have := hz.2; omega) h0S hcn h1 h2
  obtain ⟨st, hst, hinv⟩ := sealLoop_exact hH cfg.keyOk cfg.layout (iv := iv) hshort hlong hlen
    (fun i hi => hu.blockOk cfg.layout hi) (Nat.le_refl n)
  refine ⟨st, ?_, hinv.blocks, ?_, hinv.len, hinv.tail⟩
  · unfold sealFileR
    rw [cfg.div, bind_ok, hl, bind_ok, hs, bind_ok, hst]
  · apply List.ext_getElem?
    intro k
    rcases Nat.lt_or_ge k n with h | h
    · rw [hinv.ids k h, List.getElem?_map, List.getElem?_range h]
      have := hinv.blocks k h
      unfold blockOf at this
      rw [Option.map_some, this]
      rfl
    · rw [List.getElem?_eq_none (by rw [hinv.ids_len]; exact h), List.getElem?_eq_none (by simpa using h)]

/-- When sealing works in a release build.  Compared with C78 the limits of long modes 2 and 3
are gone, and mode 2 of the short dependencies works if there are as many units per block as blocks, if
at most one dependency is requested, or if blocks have at most two units (all lists are empty then). -/
theorem C90_success (H : Bytes → Bytes) (hH : ∀ x, (H x).length = 32) (params : PosPara)
    (p n c : Nat) (cfg : Config params p n c) (hn : 0 < n) (hr : 0 < params.sealRounds) (hz : ReleaseSizes params n)
    (h0S : params.modeS = 0 → c ≤ 65536 ∨ params.cntS = 0 ∨ 6 ≤ params.cntS)
    (file iv : Bytes) (hlen : n * params.blockPl ≤ file.length) (hu : UnitsBelow params p n c file) :
    (∃ st, sealFileR H params file (p : Int) iv = .ok st) ↔
      (params.modeL = 0 → n ≤ 65536 ∨ (0 < params.cntL ∧ params.cntL ≤ 5)) ∧
      (params.modeS = 0 → c ≤ 65536 ∨ params.cntS = 0) ∧ (params.modeS ≠ 0 → c ≤ n) ∧
      (params.modeS = 1 → c = n ∨ params.cntS = 0 ∨ (params.cntS = 1 ∧ 2 ≤ c)) ∧
      (params.modeS = 2 → c = n ∨ params.cntS ≤ 1 ∨ c ≤ 2) := by
  have hn63 : n ≤ 2 ^ 63 := by have := hz.2; omega
  constructor
  · rintro ⟨st, h⟩
    obtain ⟨tL, tS, htL, htS, h⟩ := sealFileR_eq cfg h
    have hL0 : params.modeL = 0 → n ≤ 65536 ∨ (0 < params.cntL ∧ params.cntL ≤ 5) := by
      intro m
      by_contra hcon
      obtain ⟨s, s', -, hb⟩ := forUp_step (fun _ => True) trivial (fun _ _ _ _ _ _ => trivial) h 50 (by omega)
      refine sealBlock_large hH m (by omega) (by decide) ?_ hb
      split <;> omega
    obtain ⟨s, s', -, hb⟩ := forUp_step (fun _ => True) trivial (fun _ _ _ _ _ _ => trivial) h 0 hn
    have hS0 : params.modeS = 0 → c ≤ 65536 ∨ params.cntS = 0 := by
      intro m
      have := h0S m
      by_contra hcon
      exact sealBlock_large_short hH m (by omega) (c := c) (by omega) cfg.layout.unit_pos cfg.layout.block hr hb
    have key : params.modeS ≠ 0 → ∀ j < c, ∃ l, tS[j]? = some l ∧ ∀ i ∈ l, i < c := by
      intro hm j hj
      unfold sealBlock at hb
      simp only at hb
      rw [toUnits_plain cfg.layout, bind_ok, bind_eq_ok] at hb
      obtain ⟨deps, -, hb⟩ := hb
      rw [bind_eq_ok] at hb
      obtain ⟨r, hrnd, -⟩ := hb
      have hpl : (plainUnits params c s.file 0).length = c := by simp [plainUnits]
      rw [hpl] at hrnd
      exact sealRoundsLoop_table hm hr hpl hrnd j hj
    have htable : params.modeS ≠ 0 → tS.length = n ∧ ∀ j < n, tS[j]? =
        some (if params.modeS = 2 then alternatingList n j params.cntS
          else if params.modeS = 1 then staticShort n params.cntS j else []) := by
      intro hm
      unfold idxsSOfR at htS
      rw [if_pos hm] at htS
      obtain ⟨t, ht, hl, hti⟩ := table_of (f := fun j => shortDependR n j params.cntS params.modeS) (n := n)
        (fun j hj => shortDependR_eq (mode := params.modeS) (cnt := params.cntS) hn63 hj)
      unfold createShortDependR at htS
      rw [ht] at htS
      obtain rfl := Except.ok.inj htS
      exact ⟨hl, hti⟩
    have hcn : params.modeS ≠ 0 → c ≤ n := by
      intro hm
      by_contra hcon
      obtain ⟨l, hl, -⟩ := key hm n (by omega)
      rw [List.getElem?_eq_none (by rw [(htable hm).1])] at hl
      cases hl
    refine ⟨hL0, hS0, hcn, fun hm => ?_, fun hm => ?_⟩
    · have hm0 : params.modeS ≠ 0 := by omega
      refine (staticShort_inside cfg.c_pos (hcn hm0)).mp fun j hj i hi => ?_
      obtain ⟨l, hl, hlt⟩ := key hm0 j hj
      rw [(htable hm0).2 j (by have := hcn hm0; omega), if_neg (by omega), if_pos hm] at hl
      rw [← Option.some.inj hl] at hlt
      exact hlt i hi
    · have hm0 : params.modeS ≠ 0 := by omega
      refine (alternatingList_inside (hcn hm0)).mp fun j hj i hi => ?_
      obtain ⟨l, hl, hlt⟩ := key hm0 j hj
      rw [(htable hm0).2 j (by have := hcn hm0; omega), if_pos hm] at hl
      rw [← Option.some.inj hl] at hlt
      exact hlt i hi
  · rintro ⟨h0L, h0S', h1, h2, h3⟩
    obtain ⟨st, hst, -⟩ := C90_seal_exact H hH params p n c cfg hz h0L h0S' h1 h2 h3 file iv hlen hu
      (sealingOf H params p c iv (longOfR H params n) (shortOfR H params n c)) ⟨rfl, rfl, rfl, rfl, rfl, rfl, rfl, rfl, rfl⟩
    exact ⟨st, hst⟩

/-- All hypotheses are met with mode 2 of both kinds, three blocks of three units, where sealing panics
in a debug build; with four blocks of three units it panics in a release build too. -/
example : ∃ f, copyAndPad (zeros 567) 567 63 = .ok f ∧
    (∃ st, sealFileR toyHash (toyParams 3 3 2 2 80 4 1) f P_512 [] = .ok st) ∧
    (∀ st, sealFile toyHash (toyParams 3 3 2 2 80 4 1) f P_512 [] ≠ .ok st) := by
  obtain ⟨p, hp, cfg⟩ := toy_config 3 3 2 2 80 4 1 (by norm_num)
  obtain ⟨f, f1, f2, f3, -⟩ := padded_unitsBelow cfg (origin := zeros 567) (by decide +kernel)
  refine ⟨f, f1, ?_, ?_⟩
  · rw [← hp]
    exact (C90_success toyHash (by intro x; rfl) _ p 3 3 cfg (by norm_num) (by decide)
      ⟨by decide, by decide⟩ (by decide) f [] (by rw [f2]) f3).mpr (by decide)
  · rw [← hp]
    intro st h
    have := (C78_success toyHash (by intro x; rfl) _ p 3 3 cfg (by norm_num) (by decide) (by decide)
      f [] (by rw [f2]) f3).mp ⟨st, h⟩
    exact absurd this (by decide)

example : ∃ f, copyAndPad (zeros 756) 756 63 = .ok f ∧
    ∀ st, sealFileR toyHash (toyParams 4 3 0 2 0 4 1) f P_512 [] ≠ .ok st := by
  obtain ⟨p, hp, cfg⟩ := toy_config 4 3 0 2 0 4 1 (by norm_num)
  obtain ⟨f, f1, f2, f3, -⟩ := padded_unitsBelow cfg (origin := zeros 756) (by decide +kernel)
  refine ⟨f, f1, ?_⟩
  rw [← hp]
  intro st h
  have := (C90_success toyHash (by intro x; rfl) _ p 4 3 cfg (by norm_num) (by decide)
    ⟨by decide, by decide⟩ (by decide) f [] (by rw [f2]) f3).mp ⟨st, h⟩
  exact absurd this (by decide)

/-- Store and retrieve in a release build, with hash-chosen long dependencies and any short ones that let
sealing succeed. -/
theorem C90_round_trip (H : Bytes → Bytes) (hH : ∀ x, (H x).length = 32) (params : PosPara)
    (p n c : Nat) (cfg : Config params p n c) (hn : n ≤ 2 ^ 63) (hL : params.modeL = 0) (origin : Bytes)
    (hlen : origin.length = params.dataL) (iv padded : Bytes) (st : SealState)
    (hpad : copyAndPad origin params.dataL params.unitL = .ok padded)
    (hseal : sealFileR H params padded (p : Int) iv = .ok st) (hlog : ∀ v ∈ st.log, v ≠ 0) :
    unsealFileR H params st.file (p : Int) iv = .ok padded ∧
    storeAndRetrieveR H params origin (p : Int) iv = .ok origin := by
  obtain ⟨pd, h1, h2, h3, h4⟩ := padded_unitsBelow cfg hlen
  rw [hpad] at h1
  cases h1
  have hun : unsealFileR H params st.file (p : Int) iv = .ok padded := by
    obtain ⟨L, S, htL, htS, hrun⟩ := sealFileR_eq cfg hseal
    have hnil : L = [] := by
      unfold idxsLOfR at htL
      rw [if_neg (by simp [hL])] at htL
      exact (Except.ok.inj htL).symm
    have hLok : LongOk L := by
      subst hnil
      intro i l hl
      simp at hl
    unfold unsealFileR
    rw [cfg.div, bind_ok, htL, bind_ok, htS, bind_ok]
    have h0 : SealInv H params p n c padded 0 { file := padded, ids := List.replicate n [], log := [] } :=
      sealInv_zero (fun i hi => h3.blockOk cfg.layout hi)
    exact unseal_seal hH cfg.keyOk cfg.layout (idxsSOfR_shortOk hn htS) hLok (Or.inl hL) (by omega) h0 (Nat.le_refl n)
      hrun hlog
  refine ⟨hun, ?_⟩
  unfold storeAndRetrieveR
  rw [hpad, bind_ok, hseal, bind_ok, hun, bind_ok]
  exact h4

/-- A file sealed in a release build with mode 2 of the short dependencies and retrieved. -/
example : storeAndRetrieveR toyHash (toyParams 3 3 0 2 0 4 2) (toyFile 567) P_512 [1, 2, 3] = .ok (toyFile 567) ∧
    storeAndRetrieve toyHash (toyParams 3 3 0 2 0 4 2) (toyFile 567) P_512 [1, 2, 3] = .error .overflow := by
  decide +kernel

/-- Random access in a release build: blocks of a sealed file, prepared and batch-unsealed in any order
and with repetitions, are the blocks of the file before sealing, in every mode that let sealing succeed. -/
theorem C90_random_access (H : Bytes → Bytes) (hH : ∀ x, (H x).length = 32) (params : PosPara)
    (p n c : Nat) (cfg : Config params p n c) (hz : ReleaseSizes params n) (hr : 0 < params.sealRounds) (file iv : Bytes)
    (hlen : n * params.blockPl ≤ file.length) (hu : UnitsBelow params p n c file) (st : SealState)
    (hseal : sealFileR H params file (p : Int) iv = .ok st) (hlog : ∀ v ∈ st.log, v ≠ 0)
    (idxs : List Nat) (hne : idxs ≠ []) (hidx : ∀ k ∈ idxs, k < n) :
    ∃ pr : Nat → Prepared, ∃ outs,
      (∀ k ∈ idxs, singleUnsealPrepareR H params st.file k = .ok (pr k)) ∧
      batchUnsealR H params idxs (idxs.map (fun k => (pr k).block)) (idxs.map (fun k => (pr k).beforeId))
        (idxs.map (fun k => (pr k).dependBlocks)) (p : Int) iv = .ok outs ∧
      outs.length = idxs.length ∧
      ∀ (i : Nat) (k : Nat) (out : List Bytes), idxs[i]? = some k → outs[i]? = some out →
        out.flatten = readFile file (k * params.blockPl) params.blockPl ∧ out.length = c ∧
        ∀ u ∈ out, u.length = params.unitPl := by
  have hn63 : n ≤ 2 ^ 63 := by have := hz.2; omega
  obtain ⟨L, S, hL, hS, hrun⟩ := sealFileR_eq cfg hseal
  have hex : ∀ k, ∃ pr us, k < n → ∃ T, idxsSOfR params c = .ok T ∧
      singleUnsealPrepareR H params st.file k = .ok pr ∧ pr.block.length = c ∧
      us.flatten = readFile file (k * params.blockPl) params.blockPl ∧ us.length = c ∧
      (∀ u ∈ us, u.length = params.unitPl) ∧
      unsealRoundsLoop H params (p : Int) iv T pr.beforeId pr.dependBlocks c k pr.block = .ok us := by
    intro k
    by_cases hk : k < n
    · obtain ⟨us', b, deps, us, e1, e2, hdeps, husl', -, htu, hblock, husl, -, hsafe, hun⟩ :=
        sealed_block_tables hH cfg hlen hu (idxsLOfR_longOk hz hL) (idxsSOfR_shortOk hn63 hS) hrun hlog hk
      have hprep : singleUnsealPrepareR H params st.file k = .ok ⟨us', b, deps⟩ := by
        unfold singleUnsealPrepareR
        simp only []
        rw [e1, bind_ok, cfg.div, bind_ok, hL, bind_ok]
        simp only [e2]
        exact bind_eq_ok.mpr ⟨deps, hdeps, rfl⟩
      obtain ⟨T, hT, hagree⟩ := short_tables_agreeR hn63 hS (fun hm => hsafe hm hr)
      refine ⟨⟨us', b, deps⟩, us, fun _ => ⟨T, hT, hprep, husl', hblock, husl, ?_, ?_⟩⟩
      · obtain ⟨w, hw1, -, hw2, -⟩ := blockOf_units cfg.layout file k
        unfold blockOf at hw1
        rw [htu] at hw1
        cases hw1
        exact hw2
      · rw [← unsealRoundsLoop_congrS hagree]
        exact hun
    · exact ⟨⟨[], [], []⟩, [], fun h => absurd h hk⟩
  choose pr us h using hex
  refine ⟨pr, idxs.map us, fun k hk => ?_, ?_, by simp, ?_⟩
  · obtain ⟨T, -, h2, -⟩ := h k (hidx k hk)
    exact h2
  · cases idxs with
    | nil => exact absurd rfl hne
    | cons a l =>
      obtain ⟨T, hT, -⟩ := h a (hidx a (by simp))
      have hT' : batchIdxsSR params = .ok T := by rw [batchIdxsSR_eq cfg]; exact hT
      refine batchUnsealR_of hT' (by simp) (by simp) (by simp) (by simp) ?_
      intro i hi
      simp only [List.getElem_map]
      obtain ⟨T', hT'', -, h3, -, -, -, h4⟩ := h ((a :: l)[i]) (hidx _ (List.getElem_mem hi))
      rw [hT] at hT''
      cases hT''
      rw [h3]
      exact h4
  · intro i k out hi ho
    rw [List.getElem?_map, hi] at ho
    cases ho
    have hk : k ∈ idxs := List.mem_of_getElem? hi
    obtain ⟨T, -, -, -, h5, h6, h7, -⟩ := h k (hidx k hk)
    exact ⟨h5, h6, h7⟩

/-- A file sealed in a release build with mode 2 of both kinds whose last block is unsealed by itself. -/
example : (match copyAndPad (toyFile 567) 567 63 with
    | .ok padded => (match sealFileR toyHash (toyParams 3 3 2 2 3 4 1) padded P_512 [1, 2, 3] with
      | .ok st => (match singleUnsealPrepareR toyHash (toyParams 3 3 2 2 3 4 1) st.file 2 with
        | .ok a => (match batchUnsealR toyHash (toyParams 3 3 2 2 3 4 1) [2] [a.block] [a.beforeId] [a.dependBlocks]
            P_512 [1, 2, 3] with
          | .ok [x] => decide (x.flatten = readFile padded 384 192)
          | _ => false)
        | _ => false)
      | _ => false)
    | _ => false) = true := by decide +kernel

end PoS
