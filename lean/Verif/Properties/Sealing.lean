import Verif.Proofs.SealExact
import Verif.Proofs.Verifier
import Verif.Properties.Storage
import Verif.Properties.Depend

/-
What a sealed file contains, byte by byte: C64 (sealing), C65 (the delay encoding), C66
(earlier blocks do not depend on later ones), C78 (which static dependencies work).
-/

namespace PoS

/-! ### C65: the delay encoding -/

/-- One encoding step takes `x` to the only non-zero residue `z` such that `x` is the square of
`z + 1` when `z` is odd and minus the square of `z - 1` when `z` is even. -/
theorem C65_step {p : Nat} (hp : p.Prime) (h34 : p % 4 = 3) (x : Nat) (hx0 : 0 < x) (hxp : x < p) :
    ∃ z : Nat, Rug.singleSloth (x : Int) (p : Int) = (z : Int) ∧ Num.singleSloth (x : Int) (p : Int) = (z : Int) ∧
      (0 < z ∧ z < p ∧ (z % 2 = 1 → (z + 1) ^ 2 % p = x) ∧ (z % 2 = 0 → (x + (z - 1) ^ 2) % p = 0)) ∧
      ∀ w : Nat, 0 < w → w < p → (w % 2 = 1 → (w + 1) ^ 2 % p = x) →
        (w % 2 = 0 → (x + (w - 1) ^ 2) % p = 0) → w = z := by
  have key : ∀ w : Nat, 0 < w → w < p →
      (unstep p w = x ↔ (w % 2 = 1 → (w + 1) ^ 2 % p = x) ∧ (w % 2 = 0 → (x + (w - 1) ^ 2) % p = 0)) := by
    intro w hw0 hwp
    unfold unstep
    rcases (show w % 2 = 1 ∨ w % 2 = 0 by omega) with h | h
    · rw [if_pos h]
      constructor
      · intro e; exact ⟨fun _ => e, fun h' => by omega⟩
      · intro e; exact e.1 h
    · rw [if_neg (by omega)]
      generalize (w - 1) ^ 2 = q
      have hq : q % p < p := Nat.mod_lt _ hp.pos
      have hadd : (x + q) % p = (x + q % p) % p := by simp
      constructor
      · intro e
        refine ⟨fun h' => by omega, fun _ => ?_⟩
        rw [hadd, show x + q % p = p by omega, Nat.mod_self]
      · intro e
        have e2 := e.2 h
        rw [hadd] at e2
        have : x + q % p = p := by
          obtain ⟨k, hk⟩ := Nat.dvd_of_mod_eq_zero e2
          have h1 : k = 1 := by
            rcases (show k = 0 ∨ k = 1 ∨ 2 ≤ k by omega) with r | r | r
            · subst r; omega
            · exact r
            · have : p * 2 ≤ p * k := Nat.mul_le_mul_left p r
              omega
          subst h1; omega
        omega
  obtain ⟨h1, h2, h3, h4⟩ := singleSloth_step hp h34 hx0 hxp
  refine ⟨slothStep p x, h1, by rw [num_singleSloth_eq]; exact h1, ⟨h2, h3, (key _ h2 h3).mp h4⟩, ?_⟩
  intro w hw0 hwp e1 e2
  exact unstep_inj hp h34 hw0 hwp h2 h3 (((key w hw0 hwp).mpr ⟨e1, e2⟩).trans h4.symm)

/-- The whole encoding and the whole decoding, in both implementations. -/
theorem C65_encode {p : Nat} (hp : p.Prime) (h34 : p % 4 = 3) (x : Nat) (hx0 : 0 < x) (hxp : x < p) (t : Nat) :
    Rug.sloth (x : Int) (p : Int) t = (encode p t x : Nat) ∧ Num.sloth (x : Int) (p : Int) t = (encode p t x : Nat) ∧
    Rug.slothInv (x : Int) (p : Int) t = ((unstep p)^[t] x : Nat) ∧
    Num.slothInv (x : Int) (p : Int) t = ((unstep p)^[t] x : Nat) := by
  have h1 := (sloth_iterate hp h34 hx0 hxp t).1
  have h2 := (slothInv_iterate hp h34 hx0 hxp t).1
  have he : encode p t x = (slothStep p)^[t] x := by
    unfold encode; rw [if_neg (by omega)]
  rw [he]
  refine ⟨h1, by rw [num_sloth_eq]; exact h1, h2, ?_⟩
  rw [num_slothInv_eq hp h34 t x hx0 hxp]
  exact h2

/-- Modulo 7: 2 is the square of 4 = 3 + 1; 3 is minus the square of 5 = 6 - 1. -/
example : Rug.singleSloth 2 7 = 3 ∧ Rug.singleSloth 3 7 = 6 ∧ encode 7 1 2 = 3 ∧ encode 7 2 2 = 6 ∧
    unstep 7 3 = 2 ∧ unstep 7 6 = 3 := by decide

/-! ### C64: the sealed file -/

/-- The long dependencies of a call of `seal`: chosen by the hash in mode 0, otherwise static. -/
def longOf (H : Bytes → Bytes) (params : PosPara) (n : Nat) : Bytes → Nat → List Nat :=
  if params.modeL = 0 then hashLong H n params.cntL else fun _ => staticLong params.modeL params.cntL

/-- The short dependencies of a call of `seal`: chosen by the hash in mode 0; in mode 1 static, among
as many positions as there are blocks; otherwise none. -/
def shortOf (H : Bytes → Bytes) (params : PosPara) (n c : Nat) : Bytes → Nat → List Nat :=
  if params.modeS = 0 then hashShort H c params.cntS
  else if params.modeS = 1 then fun _ => staticShort n params.cntS else fun _ _ => []

/-- The description that belongs to a call of `seal`. -/
def describes (S : Sealing) (H : Bytes → Bytes) (params : PosPara) (p n c : Nat) (iv : Bytes) : Prop :=
  S.H = H ∧ S.enc = encode p params.vdeRounds ∧ S.p = p ∧ S.unitPl = params.unitPl ∧ S.c = c ∧
  S.rounds = params.sealRounds ∧ S.iv = iv ∧ S.long = longOf H params n ∧ S.short = shortOf H params n c

theorem describes_sealingOf {S : Sealing} {H : Bytes → Bytes} {params : PosPara} {p n c : Nat} {iv : Bytes}
    (h : describes S H params p n c iv) :
    S = sealingOf H params p c iv (longOf H params n) (shortOf H params n c) := by
  obtain ⟨h1, h2, h3, h4, h5, h6, h7, h8, h9⟩ := h
  obtain ⟨_, _, _, _, _, _, _, _, _⟩ := S
  simp only at h1 h2 h3 h4 h5 h6 h7 h8 h9
  subst h1; subst h2; subst h3; subst h4; subst h5; subst h6; subst h7; subst h8; subst h9
  rfl

/-- The modes of the long dependencies that do not panic on `n` blocks. -/
def LongModeOk (params : PosPara) (n : Nat) : Prop :=
  (params.modeL = 0 → LongCountOk n params.cntL) ∧ (params.modeL = 2 → params.cntL ≤ 64) ∧ (params.modeL = 3 → n ≤ 650)

/-- The modes of the short dependencies that do not panic on `n` blocks of `c` units. -/
def ShortModeOk (params : PosPara) (n c : Nat) : Prop :=
  (params.modeS = 0 → ShortCountOk c params.cntS) ∧ (params.modeS ≠ 0 → c ≤ n) ∧ (params.modeS = 2 → params.cntS = 0) ∧
  (params.modeS = 1 → c = n ∨ params.cntS = 0 ∨ (params.cntS = 1 ∧ 2 ≤ c))

theorem staticLong_ok {mode cnt n : Nat} (h2 : mode = 2 → cnt ≤ 64) (h3 : mode = 3 → n ≤ 650) :
    ∀ k < n, longDepend k cnt mode = .ok (staticLong mode cnt k) := by
  intro k hk
  unfold longDepend staticLong
  by_cases m1 : mode = 1
  · rw [if_pos m1, if_pos m1, longMode1_eq]
  · rw [if_neg m1, if_neg m1]
    by_cases m2 : mode = 2
    · rw [if_pos m2, if_pos m2, longMode2_eq _ _ (h2 m2)]
    · rw [if_neg m2, if_neg m2]
      by_cases m3 : mode = 3
      · have := h3 m3
        rw [if_pos m3, if_pos m3, longMode3_eq, longMode2_eq _ _ (by omega)]
      · rw [if_neg m3, if_neg m3]

theorem table_of {f : Nat → R (List Nat)} {g : Nat → List Nat} {n : Nat} (h : ∀ i < n, f i = .ok (g i)) :
    ∃ t, forUp n (fun idx acc => do
      let cur ← f idx
      pure (acc ++ [cur])) ([] : List (List Nat)) = .ok t ∧ t.length = n ∧ ∀ i < n, t[i]? = some (g i) := by
  obtain ⟨t, ht⟩ := table_ok (fun i hi => ⟨g i, h i hi⟩)
  obtain ⟨hl, hs⟩ := table_spec ht
  refine ⟨t, ht, hl, fun i hi => ?_⟩
  have := hs i (by omega)
  rw [h i hi] at this
  rw [List.getElem?_eq_getElem (by omega), Except.ok.inj this]

theorem longOf_is {H : Bytes → Bytes} (hH : ∀ x, (H x).length = 32) {params : PosPara} {n : Nat} (ok : LongModeOk params n) :
    ∃ t, idxsLOf params n = .ok t ∧ LongIs H params n t (longOf H params n) := by
  obtain ⟨h0, h2, h3⟩ := ok
  unfold idxsLOf longOf
  by_cases hL : params.modeL = 0
  · rw [if_neg (by simp [hL]), if_pos hL]
    exact ⟨[], rfl, longIs_hash hH hL (h0 hL)⟩
  · rw [if_pos hL, if_neg hL]
    have hok := staticLong_ok (mode := params.modeL) (cnt := params.cntL) (n := n) h2 h3
    obtain ⟨t, ht, -, hti⟩ := table_of hok
    exact ⟨t, ht, longIs_table hL hti (fun k hk => longDepend_lt (hok k hk))⟩

theorem staticShort_eq (n cnt j : Nat) : shortMode1 n j cnt = .ok (staticShort n cnt j) := shortMode1_eq n j cnt

theorem shortDepend_eq {mode cnt n : Nat} (h2 : mode = 2 → cnt = 0) (j : Nat) :
    shortDepend n j cnt mode = .ok (if mode = 1 then staticShort n cnt j else []) := by
  unfold shortDepend
  by_cases m1 : mode = 1
  · rw [if_pos m1, if_pos m1, staticShort_eq]
  · rw [if_neg m1, if_neg m1]
    by_cases m2 : mode = 2
    · rw [if_pos m2, h2 m2]; rfl
    · rw [if_neg m2]

/-- Which candidates lie inside a block of `c` of `n` positions. -/
theorem staticShort_inside {n cnt c : Nat} (hc0 : 0 < c) (hcn : c ≤ n) :
    (∀ j < c, ∀ i ∈ staticShort n cnt j, i < c) ↔ c = n ∨ cnt = 0 ∨ (cnt = 1 ∧ 2 ≤ c) := by
  have hcand : ∀ j < n, ∀ i ∈ staticShort n cnt j, i < n := by
    intro j hj i hi
    obtain ⟨e, -, he⟩ := List.mem_flatMap.mp (List.mem_of_mem_take hi)
    exact (pairAt_mem (num := n) (index := j) (e := e) he hj).1
  have hfirst : ∀ j, j + 1 < n → ∃ rest, (List.range (n + j + 1)).flatMap (fun e =>
      (if 1 + 2 * e ≤ j then [j - (1 + 2 * e)] else []) ++ (if j + (1 + 2 * e) < n then [j + (1 + 2 * e)] else [])) =
      (if 1 ≤ j then [j - 1] else []) ++ [j + 1] ++ rest := by
    intro j hj
    rw [show n + j + 1 = (n + j) + 1 from rfl, List.range_succ_eq_map, List.flatMap_cons, Nat.mul_zero, Nat.add_zero,
      if_pos hj]
    exact ⟨_, rfl⟩
  constructor
  · intro h
    by_contra hcon
    have hlt : c < n := by omega
    have hcnt : cnt ≠ 0 := by omega
    obtain ⟨rest, hr⟩ := hfirst (c - 1) (by omega)
    rcases (show c = 1 ∨ 2 ≤ c by omega) with h1 | h2
    · subst h1
      have := h 0 (by omega) 1 (by
        unfold staticShort
        rw [hr, if_neg (by omega)]
        obtain ⟨m, rfl⟩ : ∃ m, cnt = m + 1 := ⟨cnt - 1, by omega⟩
        simp)
      omega
    · have := h (c - 1) (by omega) c (by
        unfold staticShort
        rw [hr, if_pos (by omega)]
        obtain ⟨m, rfl⟩ : ∃ m, cnt = m + 2 := ⟨cnt - 2, by omega⟩
        simp only [List.singleton_append, List.cons_append, List.nil_append, List.take_succ_cons, List.mem_cons]
        right; left; omega)
      omega
  · rintro (rfl | rfl | ⟨rfl, h2⟩) j hj i hi
    · exact hcand j hj i hi
    · simp [staticShort] at hi
    · rcases (show j + 1 < n ∨ n ≤ j + 1 by omega) with h | h
      · obtain ⟨rest, hr⟩ := hfirst j h
        unfold staticShort at hi
        rw [hr] at hi
        by_cases hj0 : 1 ≤ j
        · rw [if_pos hj0] at hi
          simp at hi
          omega
        · rw [if_neg hj0] at hi
          simp at hi
          omega
      · have := hcand j (by omega) i hi
        omega

theorem shortOf_is {H : Bytes → Bytes} (hH : ∀ x, (H x).length = 32) {params : PosPara} {n c : Nat} (hc0 : 0 < c)
    (ok : ShortModeOk params n c) :
    ∃ t, idxsSOf params n = .ok t ∧ ShortIs H params c t (shortOf H params n c) := by
  obtain ⟨h0, hcn, h2, h1⟩ := ok
  unfold idxsSOf shortOf
  by_cases hS : params.modeS = 0
  · rw [if_neg (by simp [hS]), if_pos hS]
    exact ⟨[], rfl, shortIs_hash hH hS hc0 (h0 hS)⟩
  · rw [if_pos hS, if_neg hS]
    obtain ⟨t, ht, -, hti⟩ := table_of (f := fun j => shortDepend n j params.cntS params.modeS) (n := n)
      (fun j _ => shortDepend_eq (n := n) h2 j)
    refine ⟨t, ht, ?_⟩
    have hi := hcn hS
    by_cases hm : params.modeS = 1
    · rw [if_pos hm]
      simp only [if_pos hm] at hti
      exact shortIs_table hS (fun j hj => hti j (by omega)) ((staticShort_inside hc0 hi).mpr (h1 hm))
    · rw [if_neg hm]
      simp only [if_neg hm] at hti
      exact shortIs_table hS (f := fun _ => []) (fun j hj => hti j (by omega)) (fun j _ i hi => by simp at hi)

/-- Sealing, in all dependency modes that work: the blocks of the sealed file are the blocks of the
mathematical description of the padded file, the identifiers are their hashes, and nothing else in
the file changes. -/
theorem C64_seal_exact (H : Bytes → Bytes) (hH : ∀ x, (H x).length = 32) (params : PosPara)
    (p n c : Nat) (cfg : Config params p n c) (hL : LongModeOk params n) (hS : ShortModeOk params n c)
    (file iv : Bytes) (hlen : n * params.blockPl ≤ file.length)
    (hu : UnitsBelow params p n c file) (S : Sealing) (hd : describes S H params p n c iv) :
    ∃ st, sealFile H params file (p : Int) iv = .ok st ∧
      (∀ k < n, readFile st.file (k * params.blockPl) params.blockPl =
        ((S.sealedBlocks (fun k => (List.range c).map
          (fun j => readFile file ((k * c + j) * params.unitPl) params.unitPl)) n).getD k []).flatten) ∧
      st.ids = (List.range n).map (fun k => H (readFile st.file (k * params.blockPl) params.blockPl)) ∧
      st.file.length = file.length ∧ ∀ i, n * params.blockPl ≤ i → st.file[i]? = file[i]? := by
  rw [describes_sealingOf hd]
  obtain ⟨tL, hl, hlong⟩ := longOf_is hH hL
  obtain ⟨tS, hs, hshort⟩ := shortOf_is hH cfg.c_pos hS
  obtain ⟨st, h1, hinv⟩ := sealLoop_exact hH cfg.keyOk cfg.layout (iv := iv) hshort hlong hlen
    (fun i hi => hu.blockOk cfg.layout hi) (Nat.le_refl n)
  refine ⟨st, ?_, hinv.blocks, ?_, hinv.len, hinv.tail⟩
  · rw [sealFile_eq cfg]
    unfold sealPrefix
    rw [cfg.div, bind_ok, hl, bind_ok, hs, bind_ok]
    exact h1
  · apply List.ext_getElem?
    intro k
    rcases Nat.lt_or_ge k n with h | h
    · rw [hinv.ids k h, List.getElem?_map, List.getElem?_range h]
      have := hinv.blocks k h
      unfold blockOf at this
      rw [Option.map_some, this]
      rfl
    · rw [List.getElem?_eq_none (by rw [hinv.ids_len]; exact h), List.getElem?_eq_none (by simpa using h)]

/-- The modes of the shipped parameter sets are among them. -/
theorem hashModes_ok {params : PosPara} {n c : Nat} (hL : params.modeL = 0) (hS : params.modeS = 0) (hn : LongCountOk n params.cntL)
    (hc : ShortCountOk c params.cntS) : LongModeOk params n ∧ ShortModeOk params n c :=
  ⟨⟨fun _ => hn, fun h => by omega, fun h => by omega⟩,
   ⟨fun _ => hc, fun h => absurd hS h, fun h => by omega, fun h => by omega⟩⟩

/-- The shipped parameter sets with the shipped 512-bit modulus. -/
theorem C64_shipped (H : Bytes → Bytes) (hH : ∀ x, (H x).length = 32) (l : Nat) (origin iv : Bytes)
    (hlen : origin.length = (genPosdata l).dataL) :
    ∃ c padded st, ∃ S : Sealing, describes S H (genPosdata l) P_512.toNat 256 c iv ∧
      copyAndPad origin (genPosdata l).dataL (genPosdata l).unitL = .ok padded ∧
      sealFile H (genPosdata l) padded P_512 iv = .ok st ∧
      ∀ k < 256, readFile st.file (k * (genPosdata l).blockPl) (genPosdata l).blockPl =
        ((S.sealedBlocks (fun k => (List.range c).map
          (fun j => readFile padded ((k * c + j) * (genPosdata l).unitPl) (genPosdata l).unitPl)) 256).getD k []).flatten := by
  obtain ⟨c, hc, cfg, hL, hS⟩ := genPosdata_config l _ prime_P_512 (by norm_num) (by norm_num) (by norm_num)
  obtain ⟨padded, g1, g2, g3, -⟩ := padded_unitsBelow cfg hlen
  have hd : describes (sealingOf H (genPosdata l) P_512.toNat c iv (longOf H (genPosdata l) 256)
      (shortOf H (genPosdata l) 256 c)) H (genPosdata l) P_512.toNat 256 c iv :=
    ⟨rfl, rfl, rfl, rfl, rfl, rfl, rfl, rfl, rfl⟩
  obtain ⟨oL, oS⟩ := hashModes_ok (n := 256) (c := c) hL hS (by omega) (by omega)
  obtain ⟨st, h1, h2, -⟩ := C64_seal_exact H hH _ _ 256 c cfg oL oS padded iv
    (by omega) g3 _ hd
  exact ⟨c, padded, st, _, hd, g1, h1, h2⟩

/-- The description evaluated by hand on two one-byte blocks modulo 251 with the identity as the
encoder: the second block is chained to the first one and refers to it. -/
example : ({ H := fun x => [UInt8.ofNat (x.foldl (fun a b => a + b.toNat) 1)] ++ zeros 31, enc := id, p := 251, unitPl := 1,
             c := 1, rounds := 1, iv := [5],
             long := hashLong (fun x => [UInt8.ofNat (x.foldl (fun a b => a + b.toNat) 1)] ++ zeros 31) 2 1,
             short := hashShort (fun x => [UInt8.ofNat (x.foldl (fun a b => a + b.toNat) 1)] ++ zeros 31) 1 0 } : Sealing).sealedBlocks
      (fun k => [[UInt8.ofNat (10 + k)]]) 2 = [[[16]], [[45]]] := by decide +kernel

/-- The static choices, written out. -/
example : staticLong 1 3 10 = [9, 7, 5] ∧ staticLong 2 4 10 = [8, 7, 5, 1] ∧ staticLong 3 0 25 = [23, 22] ∧
    staticShort 8 4 2 = [1, 3, 5, 7] ∧ staticShort 8 3 7 = [6, 4, 2] := by decide

/-! ### C78: in which modes sealing works -/

/-- What the existence of the long table says about the modes. -/
theorem longTable_modes {params : PosPara} {n : Nat} (hn : 0 < n) {tL : List (List Nat)}
    (htL : idxsLOf params n = .ok tL) :
    (params.modeL = 2 → params.cntL ≤ 64) ∧ (params.modeL = 3 → n ≤ 650) := by
  constructor
  · intro m
    by_contra hcon
    unfold idxsLOf at htL
    rw [if_pos (by omega), m] at htL
    unfold createLongDepend at htL
    obtain ⟨hl, hs⟩ := table_spec htL
    have := hs 0 (by omega)
    unfold longDepend at this
    rw [if_neg (by decide), if_pos rfl, longMode2_error _ _ (by omega)] at this
    cases this
  · intro m
    by_contra hcon
    unfold idxsLOf at htL
    rw [if_pos (by omega), m, (C20_long_mode_3 n params.cntL).2 (by omega)] at htL
    cases htL

/-- What the tables say about the modes, if the short one can be used for a whole block. -/
theorem tables_modes {params : PosPara} {n c : Nat} (hc0 : 0 < c) (hn : 0 < n)
    {tL tS : List (List Nat)} (htL : idxsLOf params n = .ok tL) (htS : idxsSOf params n = .ok tS)
    (hS0 : params.modeS = 0 → c ≤ 65536 ∨ params.cntS = 0)
    (key : params.modeS ≠ 0 → ∀ j < c, ∃ l, tS[j]? = some l ∧ ∀ i ∈ l, i < c) :
    (params.modeL = 2 → params.cntL ≤ 64) ∧ (params.modeL = 3 → n ≤ 650) ∧
      (params.modeS = 0 → c ≤ 65536 ∨ params.cntS = 0) ∧ (params.modeS ≠ 0 → c ≤ n) ∧
      (params.modeS = 2 → params.cntS = 0) ∧ (params.modeS = 1 → c = n ∨ params.cntS = 0 ∨ (params.cntS = 1 ∧ 2 ≤ c)) := by
  obtain ⟨hL2, hL3⟩ := longTable_modes hn htL
  have hS2 : params.modeS = 2 → params.cntS = 0 := by
    intro m
    by_contra hcon
    unfold idxsSOf at htS
    rw [if_pos (by omega), m, C21_short_mode_2 n params.cntS hn (by omega)] at htS
    cases htS
  have htable : params.modeS ≠ 0 → tS.length = n ∧ ∀ j < n, tS[j]? =
      some (if params.modeS = 1 then staticShort n params.cntS j else []) := by
    intro hm
    unfold idxsSOf at htS
    rw [if_pos hm] at htS
    obtain ⟨t, ht, hl, hti⟩ := table_of (f := fun j => shortDepend n j params.cntS params.modeS) (n := n)
      (fun j _ => shortDepend_eq (n := n) hS2 j)
    unfold createShortDepend at htS
    rw [ht] at htS
    obtain rfl := Except.ok.inj htS
    exact ⟨hl, hti⟩
  have hcn : params.modeS ≠ 0 → c ≤ n := by
    intro hm
    by_contra hcon
    obtain ⟨l, hl, -⟩ := key hm n (by omega)
    rw [List.getElem?_eq_none (by rw [(htable hm).1])] at hl
    cases hl
  refine ⟨hL2, hL3, hS0, hcn, hS2, fun hm => ?_⟩
  have hm0 : params.modeS ≠ 0 := by omega
  refine (staticShort_inside hc0 (hcn hm0)).mp fun j hj i hi => ?_
  obtain ⟨l, hl, hlt⟩ := key hm0 j hj
  rw [(htable hm0).2 j (by have := hcn hm0; omega), if_pos hm] at hl
  rw [← Option.some.inj hl] at hlt
  exact hlt i hi

/-- What the tables and any one sealed block say about the modes. -/
theorem sealBlock_modes {H : Bytes → Bytes} (hH : ∀ x, (H x).length = 32) {params : PosPara}
    {p n c : Nat} (cfg : Config params p n c) (hn : 0 < n) (hr : 0 < params.sealRounds)
    (h0S : params.modeS = 0 → c ≤ 65536 ∨ params.cntS = 0 ∨ 6 ≤ params.cntS) {iv : Bytes} {tL tS : List (List Nat)}
    (htL : idxsLOf params n = .ok tL) (htS : idxsSOf params n = .ok tS) {b : Nat} {s s' : SealState}
    (hb : sealBlock H params (p : Int) iv n tL tS b s = .ok s') :
    (params.modeL = 2 → params.cntL ≤ 64) ∧ (params.modeL = 3 → n ≤ 650) ∧
      (params.modeS = 0 → c ≤ 65536 ∨ params.cntS = 0) ∧ (params.modeS ≠ 0 → c ≤ n) ∧
      (params.modeS = 2 → params.cntS = 0) ∧ (params.modeS = 1 → c = n ∨ params.cntS = 0 ∨ (params.cntS = 1 ∧ 2 ≤ c)) := by
  have hS0 : params.modeS = 0 → c ≤ 65536 ∨ params.cntS = 0 := by
    intro m
    have := h0S m
    by_contra hcon
    exact sealBlock_large_short hH m (by omega) (c := c) (by omega) cfg.layout.unit_pos cfg.layout.block hr hb
  have key : params.modeS ≠ 0 → ∀ j < c, ∃ l, tS[j]? = some l ∧ ∀ i ∈ l, i < c := by
    intro hm j hj
    unfold sealBlock at hb
    simp only at hb
    rw [toUnits_plain cfg.layout, bind_ok, bind_eq_ok] at hb
    obtain ⟨deps, -, hb⟩ := hb
    rw [bind_eq_ok] at hb
    obtain ⟨r, hrnd, -⟩ := hb
    have hpl : (plainUnits params c s.file b).length = c := by simp [plainUnits]
    rw [hpl] at hrnd
    exact sealRoundsLoop_table hm hr hpl hrnd j hj
  exact tables_modes cfg.c_pos hn htL htS hS0 key

/-- Sealing succeeds exactly in the modes listed by `LongModeOk` and `ShortModeOk`.  In particular
hash-chosen long dependencies on more than 65536 blocks need a fixed count from one to five, and mode 1
of the short dependencies needs as many units per block as there are blocks, unless at most one
dependency per unit is requested.  The remaining case, one to five hash-chosen short dependencies in
blocks of more than 65536 units, depends on the hash values and is decided by C117. -/
theorem C78_success (H : Bytes → Bytes) (hH : ∀ x, (H x).length = 32) (params : PosPara)
    (p n c : Nat) (cfg : Config params p n c) (hn : 0 < n) (hr : 0 < params.sealRounds)
    (h0S : params.modeS = 0 → c ≤ 65536 ∨ params.cntS = 0 ∨ 6 ≤ params.cntS)
    (file iv : Bytes) (hlen : n * params.blockPl ≤ file.length) (hu : UnitsBelow params p n c file) :
    (∃ st, sealFile H params file (p : Int) iv = .ok st) ↔
      (params.modeL = 0 → n ≤ 65536 ∨ (0 < params.cntL ∧ params.cntL ≤ 5)) ∧
      (params.modeL = 2 → params.cntL ≤ 64) ∧ (params.modeL = 3 → n ≤ 650) ∧
      (params.modeS = 0 → c ≤ 65536 ∨ params.cntS = 0) ∧ (params.modeS ≠ 0 → c ≤ n) ∧
      (params.modeS = 2 → params.cntS = 0) ∧ (params.modeS = 1 → c = n ∨ params.cntS = 0 ∨ (params.cntS = 1 ∧ 2 ≤ c)) := by
  have hnn : params.dataL / params.blockL = n := by
    have := cfg.div
    unfold div! at this
    split at this <;> cases this
    rfl
  constructor
  · rintro ⟨st, h⟩
    have hL0 : params.modeL = 0 → n ≤ 65536 ∨ (0 < params.cntL ∧ params.cntL ≤ 5) := by
      intro m
      by_contra hcon
      obtain ⟨e, he⟩ := C22_sealing_panics H hH params file (p : Int) iv m (by omega) (by omega)
      rw [h] at he
      cases he
    rw [sealFile_eq cfg] at h
    unfold sealPrefix at h
    rw [cfg.div, bind_ok, bind_eq_ok] at h
    obtain ⟨tL, htL, h⟩ := h
    rw [bind_eq_ok] at h
    obtain ⟨tS, htS, h⟩ := h
    obtain ⟨s, s', -, hb⟩ := forUp_step (fun _ => True) trivial (fun _ _ _ _ _ _ => trivial) h 0 hn
    exact ⟨hL0, sealBlock_modes hH cfg hn hr h0S htL htS hb⟩
  · rintro ⟨h0, h1, h2, h3, h4, h5, h6⟩
    obtain ⟨st, hst, -⟩ := C64_seal_exact H hH params p n c cfg ⟨h0, h1, h2⟩ ⟨h3, h4, h5, h6⟩ file iv hlen hu
      (sealingOf H params p c iv (longOf H params n) (shortOf H params n c)) ⟨rfl, rfl, rfl, rfl, rfl, rfl, rfl, rfl, rfl⟩
    exact ⟨st, hst⟩

/-- All hypotheses are met by static dependencies of both kinds that work (three blocks of three units)
and by ones that do not (three blocks of two units). -/
example : ∃ f, copyAndPad (zeros 567) 567 63 = .ok f ∧
    ∃ st, sealFile toyHash (toyParams 3 3 2 1 64 2 1) f P_512 [] = .ok st := by
  obtain ⟨p, hp, cfg⟩ := toy_config 3 3 2 1 64 2 1 (by norm_num)
  obtain ⟨f, f1, f2, f3, -⟩ := padded_unitsBelow cfg (origin := zeros 567) (by decide +kernel)
  refine ⟨f, f1, ?_⟩
  rw [← hp]
  refine (C78_success toyHash (by intro x; rfl) _ p 3 3 cfg (by norm_num) (by decide) (by decide) f [] ?_ f3).mpr
    (by decide)
  rw [f2]

example : ∃ f, copyAndPad (zeros 378) 378 63 = .ok f ∧
    ¬ ∃ st, sealFile toyHash (toyParams 3 2 2 1 64 2 1) f P_512 [] = .ok st := by
  obtain ⟨p, hp, cfg⟩ := toy_config 3 2 2 1 64 2 1 (by norm_num)
  obtain ⟨f, f1, f2, f3, -⟩ := padded_unitsBelow cfg (origin := zeros 378) (by decide +kernel)
  refine ⟨f, f1, ?_⟩
  rw [← hp, C78_success toyHash (by intro x; rfl) _ p 3 2 cfg (by norm_num) (by decide) (by decide) f []
    (by rw [f2]) f3]
  decide

/-- The shipped parameter sets with the short mode switched to 1 and two or more dependencies per
unit: sealing works only for the 4 MB size, the one with 256 units per block. -/
theorem C78_shipped_static (H : Bytes → Bytes) (hH : ∀ x, (H x).length = 32) (l : Nat) (cntS : Nat) (hcnt : 2 ≤ cntS)
    (origin iv padded : Bytes) (hlen : origin.length = (genPosdata l).dataL)
    (hpad : copyAndPad origin (genPosdata l).dataL (genPosdata l).unitL = .ok padded) :
    (∃ st, sealFile H { genPosdata l with modeS := 1, cntS := cntS } padded P_512 iv = .ok st) ↔ l = 4 := by
  obtain ⟨c, hc, cfg, hL, hS⟩ := genPosdata_config l _ prime_P_512 (by norm_num) (by norm_num) (by norm_num)
  obtain ⟨padded', g1, g2, g3, -⟩ := padded_unitsBelow cfg hlen
  rw [hpad] at g1
  obtain rfl := Except.ok.inj g1
  have cfg' : Config { genPosdata l with modeS := 1, cntS := cntS } P_512.toNat 256 c :=
    ⟨cfg.unit_pos, cfg.unit_pl, cfg.c_pos, cfg.block, cfg.block_pl, cfg.data, cfg.prime, cfg.mod4, cfg.above_units,
      cfg.above_hash, cfg.fits⟩
  have hb : l = 4 ↔ c = 256 := by
    have := cfg.block
    unfold genPosdata at this
    split_ifs at this <;> simp only at this <;> omega
  have hrounds : 0 < (genPosdata l).sealRounds := by
    unfold genPosdata
    split_ifs <;> decide
  rw [hb]
  have := C78_success H hH { genPosdata l with modeS := 1, cntS := cntS } P_512.toNat 256 c cfg' (by omega) hrounds
    (fun h => by simp at h) padded iv (by
      show 256 * (genPosdata l).blockPl ≤ _
      omega) g3
  refine this.trans ?_
  constructor
  · rintro ⟨-, -, -, -, -, -, h5⟩
    have := h5 rfl
    simp only at this
    omega
  · rintro rfl
    refine ⟨fun _ => by omega, fun h => ?_, fun h => ?_, fun h => absurd h (by simp), fun _ => Nat.le_refl _, fun h => ?_,
      fun _ => Or.inl rfl⟩
    · simp [hL] at h
    · simp [hL] at h
    · simp at h

/-! ### C66: causality -/

/-- The hypotheses are satisfiable: any two padded files of the right length with a common start. -/
example : ∃ f g : Bytes, UnitsBelow (toyParams 3 2 0 0 0 10 2) P_512.toNat 3 2 f ∧
    UnitsBelow (toyParams 3 2 0 0 0 10 2) P_512.toNat 3 2 g ∧ f.length = 3 * 128 ∧ g.length = 3 * 128 ∧
    f ≠ g ∧ f.take 128 = g.take 128 := by
  obtain ⟨p, hp, cfg⟩ := toy_config 3 2 0 0 0 10 2 (by norm_num)
  have hpe : P_512.toNat = p := by rw [← hp]; rfl
  rw [hpe]
  obtain ⟨f, f1, f2, f3, -⟩ := padded_unitsBelow cfg (origin := zeros 378) (by decide +kernel)
  obtain ⟨g, g1, g2, g3, -⟩ := padded_unitsBelow cfg (origin := zeros 377 ++ [1]) (by decide +kernel)
  have hf : copyAndPad (zeros 378) 378 63 = .ok (zeros 384) := by decide +kernel
  have hg : copyAndPad (zeros 377 ++ [1]) 378 63 = .ok (zeros 382 ++ [1, 0]) := by decide +kernel
  have e1 : (zeros 384) = f := Except.ok.inj (hf.symm.trans f1)
  have e2 : (zeros 382 ++ [1, 0]) = g := Except.ok.inj (hg.symm.trans g1)
  rw [← e1] at f2 f3
  rw [← e2] at g2 g3
  exact ⟨_, _, f3, g3, f2, g2, by decide +kernel, by decide +kernel⟩

theorem sealedBlocks_congr (S : Sealing) {f g : Nat → List Bytes} {k : Nat} (h : ∀ i < k, f i = g i) :
    S.sealedBlocks f k = S.sealedBlocks g k := by
  induction k with
  | zero => rfl
  | succ k ih =>
    show S.sealedBlocks f k ++ _ = S.sealedBlocks g k ++ _
    simp only [ih (fun i hi => h i (by omega)), h k (by omega)]

/-- Two files that agree on their first `k` blocks have the same first `k` sealed blocks: sealing can
be resumed after appending, and no sealed block depends on later data. -/
theorem C66_causal (H : Bytes → Bytes) (hH : ∀ x, (H x).length = 32) (params : PosPara)
    (p n c : Nat) (cfg : Config params p n c) (hL : LongModeOk params n) (hS : ShortModeOk params n c)
    (file file' iv : Bytes) (hlen : n * params.blockPl ≤ file.length)
    (hlen' : n * params.blockPl ≤ file'.length) (hu : UnitsBelow params p n c file)
    (hu' : UnitsBelow params p n c file') (k : Nat) (hk : k ≤ n)
    (heq : file.take (k * params.blockPl) = file'.take (k * params.blockPl)) (st st' : SealState)
    (h : sealFile H params file (p : Int) iv = .ok st) (h' : sealFile H params file' (p : Int) iv = .ok st') :
    st.file.take (k * params.blockPl) = st'.file.take (k * params.blockPl) ∧ st.ids.take k = st'.ids.take k := by
  have hd : describes (sealingOf H params p c iv (longOf H params n) (shortOf H params n c)) H params p n c iv :=
    ⟨rfl, rfl, rfl, rfl, rfl, rfl, rfl, rfl, rfl⟩
  obtain ⟨s, a1, a2, a3, a4, -⟩ := C64_seal_exact H hH params p n c cfg hL hS file iv hlen hu _ hd
  obtain ⟨s', b1, b2, b3, b4, -⟩ := C64_seal_exact H hH params p n c cfg hL hS file' iv hlen' hu' _ hd
  rw [h] at a1; cases a1
  rw [h'] at b1; cases b1
  have hunits : ∀ i < k, (List.range c).map (fun j => readFile file ((i * c + j) * params.unitPl) params.unitPl) =
      (List.range c).map (fun j => readFile file' ((i * c + j) * params.unitPl) params.unitPl) := by
    intro i hi
    apply List.map_congr_left
    intro j hj
    rw [List.mem_range] at hj
    apply readFile_congr
    intro q q1 q2
    have hq : q < k * params.blockPl := by
      rw [cfg.layout.block, ← Nat.mul_assoc]
      have h1 : (i * c + j + 1) * params.unitPl ≤ k * c * params.unitPl := by
        apply Nat.mul_le_mul_right
        have : (i + 1) * c ≤ k * c := Nat.mul_le_mul_right _ hi
        rw [Nat.add_mul, Nat.one_mul] at this
        omega
      rw [Nat.add_mul _ 1, Nat.one_mul] at h1
      omega
    have := congrArg (fun l : List UInt8 => l[q]?) heq
    simpa [List.getElem?_take, hq] using this
  have hblk : ∀ i < k, readFile st.file (i * params.blockPl) params.blockPl =
      readFile st'.file (i * params.blockPl) params.blockPl := by
    intro i hi
    rw [a2 i (by omega), b2 i (by omega), sealedBlocks_getD _ _ hi hk, sealedBlocks_getD _ _ hi hk,
      sealedBlocks_congr _ hunits]
  have hpos : 0 < params.blockPl := by
    rw [cfg.layout.block]; exact Nat.mul_pos cfg.c_pos cfg.layout.unit_pos
  refine ⟨?_, ?_⟩
  · apply List.ext_getElem?
    intro q
    rw [List.getElem?_take, List.getElem?_take]
    by_cases hq : q < k * params.blockPl
    · rw [if_pos hq, if_pos hq]
      have hdm : q / params.blockPl * params.blockPl + q % params.blockPl = q := by
        rw [Nat.mul_comm]; exact Nat.div_add_mod q params.blockPl
      have hi : q / params.blockPl < k := Nat.div_lt_of_lt_mul (by rw [Nat.mul_comm]; exact hq)
      have hm := Nat.mod_lt q hpos
      have h1 := congrArg (fun l : List UInt8 => l[q % params.blockPl]?) (hblk _ hi)
      simp only [readFile_getElem?, if_pos hm, hdm, Option.some.injEq] at h1
      have hkn : k * params.blockPl ≤ n * params.blockPl := Nat.mul_le_mul_right _ hk
      have hq1 : q < st.file.length := by omega
      have hq2 : q < st'.file.length := by omega
      rw [List.getElem?_eq_getElem hq1, List.getElem?_eq_getElem hq2] at h1 ⊢
      simp only [Option.getD_some] at h1
      rw [h1]
    · rw [if_neg hq, if_neg hq]
  · rw [a3, b3, ← List.map_take, ← List.map_take, List.take_range, Nat.min_eq_left hk]
    apply List.map_congr_left
    intro i hi
    rw [List.mem_range] at hi
    rw [hblk i hi]

end PoS
