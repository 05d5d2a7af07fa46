import Verif.Properties.Decoding
import Verif.Properties.Storage
import Verif.Properties.Bytes

/-
When storing and retrieving works, in terms of the mathematical description of sealing: C85 (what is
handed to the encoder, and retrieval), C86 (the first round of a padded file).
-/

namespace PoS

/-! ### C85: everything handed to the encoder -/

/-- The exact list of encodings made while sealing, hence their number; the file is retrievable if
none of them is an encoding of zero. -/
theorem C85_encodings (H : Bytes → Bytes) (hH : ∀ x, (H x).length = 32) (params : PosPara)
    (p n c : Nat) (cfg : Config params p n c) (hL : LongModeOk params n) (hS : ShortModeOk params n c)
    (file iv : Bytes) (hlen : n * params.blockPl ≤ file.length)
    (hu : UnitsBelow params p n c file) (S : Sealing) (hd : describes S H params p n c iv) :
    ∃ st, sealFile H params file (p : Int) iv = .ok st ∧
      st.log = S.allEncoderInputs (fun k => (List.range c).map
        (fun j => readFile file ((k * c + j) * params.unitPl) params.unitPl)) n ∧
      st.log.length = n * (params.sealRounds * c) := by
  rw [describes_sealingOf hd]
  obtain ⟨tL, hl, hlong⟩ := longOf_is hH hL
  obtain ⟨tS, hs, hshort⟩ := shortOf_is hH cfg.c_pos hS
  obtain ⟨st, h1, hinv⟩ := sealLoop_exact hH cfg.keyOk cfg.layout (iv := iv) hshort hlong hlen
    (fun i hi => hu.blockOk cfg.layout hi) (Nat.le_refl n)
  refine ⟨st, ?_, hinv.log, ?_⟩
  · rw [sealFile_eq cfg]
    unfold sealPrefix
    rw [cfg.div, bind_ok, hl, bind_ok, hs, bind_ok]
    exact h1
  · rw [hinv.log]
    unfold Sealing.allEncoderInputs Sealing.encoderInputs
    simp only [List.length_flatMap, List.length_map, List.length_range, List.map_const', List.sum_replicate, smul_eq_mul]
    rfl

/-- No unit of any block is zero when it is encoded, in terms of the description. -/
def NoZeroAnywhere (S : Sealing) (plain : Nat → List Bytes) (n : Nat) : Prop :=
  ∀ k < n, S.NoZeroEncoded (S.dependencies (S.sealedBlocks plain k) k) (S.chaining (S.sealedBlocks plain k) k) (plain k)

/-- Retrieval, with the condition on zeros spelled out mathematically. -/
theorem C85_retrieval (H : Bytes → Bytes) (hH : ∀ x, (H x).length = 32) (params : PosPara)
    (p n c : Nat) (cfg : Config params p n c) (hmode : params.modeL = 0) (hn : LongCountOk n params.cntL) (hS : ShortModeOk params n c)
    (origin iv padded : Bytes) (hlen : origin.length = params.dataL)
    (hpad : copyAndPad origin params.dataL params.unitL = .ok padded)
    (S : Sealing) (hd : describes S H params p n c iv)
    (hz : NoZeroAnywhere S (fun k => (List.range c).map
        (fun j => readFile padded ((k * c + j) * params.unitPl) params.unitPl)) n) :
    storeAndRetrieve H params origin (p : Int) iv = .ok origin := by
  have hL : LongModeOk params n := ⟨fun _ => hn, fun h => by omega, fun h => by omega⟩
  obtain ⟨pd, g1, g2, g3, -⟩ := padded_unitsBelow cfg hlen
  rw [hpad] at g1
  cases g1
  obtain ⟨st, h1, h2, -⟩ := C85_encodings H hH params p n c cfg hL hS padded iv (by omega) g3 S hd
  obtain ⟨r1, r2⟩ := C01_round_trip H hH params p n c cfg hmode origin hlen iv padded st hpad h1 (by
    intro v hv
    rw [h2] at hv
    unfold Sealing.allEncoderInputs at hv
    obtain ⟨k, hk, hv⟩ := List.mem_flatMap.mp hv
    exact hz k (List.mem_range.mp hk) v hv)
  unfold storeAndRetrieve
  rw [hpad, bind_ok, h1, bind_ok, r1, bind_ok]
  exact r2

/-- Two rounds over two blocks of two units make eight encodings. -/
example (iv : Bytes) : ∃ p : Nat, (p : Int) = P_512 ∧
    ∃ st, sealFile toyHash (toyParams 2 2 0 0 1 1 2) (zeros 256) (p : Int) iv = .ok st ∧ st.log.length = 8 := by
  obtain ⟨p, hp, cfg⟩ := toy_config 2 2 0 0 1 1 2 (by norm_num)
  have hp0 : 0 < p := cfg.prime.pos
  obtain ⟨st, h1, -, h3⟩ := C85_encodings toyHash (fun _ => rfl) _ p 2 2 cfg
    (hashModes_ok (n := 2) (c := 2) rfl rfl (by omega) (by omega)).1
    (hashModes_ok (n := 2) (c := 2) rfl rfl (by omega) (by omega)).2 (zeros 256) iv (by show 2 * (2 * 64) ≤ (zeros 256).length; rw [zeros_length])
    (fun j hj => by
      have : readFile (zeros 256) (j * 64) 64 = zeros 64 := by
        have hj : j < 4 := hj
        interval_cases j <;> decide +kernel
      show leNat (readFile (zeros 256) (j * 64) 64) < p
      rw [this, show leNat (zeros 64) = 0 by decide +kernel]
      exact hp0)
    (sealingOf toyHash (toyParams 2 2 0 0 1 1 2) p 2 iv (longOf toyHash (toyParams 2 2 0 0 1 1 2) 2)
      (shortOf toyHash (toyParams 2 2 0 0 1 1 2) 2 2)) ⟨rfl, rfl, rfl, rfl, rfl, rfl, rfl, rfl, rfl⟩
  exact ⟨p, hp, st, h1, h3⟩

/-! ### C86: the first round -/

/-- In the first round of sealing unit `j` of a block is still the plain one when its turn comes. -/
theorem firstRound_unit (S : Sealing) (deps : List (List Bytes)) (chain : Bytes) (b : List Bytes) (i j : Nat) (h : i ≤ j) :
    ((List.range i).foldl (S.stepUnit deps chain) b).getD j [] = b.getD j [] := by
  induction i with
  | zero => rfl
  | succ i ih =>
    rw [List.range_succ, List.foldl_append]
    simp only [List.foldl_cons, List.foldl_nil]
    unfold Sealing.stepUnit
    rw [Sealing.getD_set_ne _ _ _ _ _ (by omega)]
    exact ih (by omega)

/-- The units of a padded file are smaller than `256 ^ unit_l`. -/
theorem padded_units_small {params : PosPara} {p n c : Nat} (cfg : Config params p n c) {origin padded : Bytes}
    (hlen : origin.length = params.dataL) (hpad : copyAndPad origin params.dataL params.unitL = .ok padded)
    {i : Nat} (hi : i < n * c) : leNat (readFile padded (i * params.unitPl) params.unitPl) < 256 ^ params.unitL := by
  have hd : params.dataL = (n * c) * params.unitL := by rw [cfg.data, cfg.block, Nat.mul_assoc]
  obtain ⟨pd, h1, -, h3, -⟩ := C15_pad_compress origin params.unitL (n * c) cfg.unit_pos (by rw [hlen, hd])
  rw [← hd, hpad] at h1
  cases h1
  rw [cfg.unit_pl, h3 i hi]
  have hl : (readFile origin (i * params.unitL) params.unitL).length = params.unitL := readFile_length _ _ _
  have e : leNat (readFile origin (i * params.unitL) params.unitL ++ [0]) =
      leNat (readFile origin (i * params.unitL) params.unitL) := by
    rw [leNat_append]
    simp [leNat]
  rw [e]
  have := leNat_lt (readFile origin (i * params.unitL) params.unitL)
  rwa [hl] at this

/-- The exact encoder inputs of the first round over a padded file: plain unit plus mask, without
any reduction.  One of them is zero only if the unit is zero and the mask is a digest of 32 zero
bytes. -/
theorem C86_first_round (H : Bytes → Bytes) (hH : ∀ x, (H x).length = 32) (params : PosPara)
    (p n c : Nat) (cfg : Config params p n c) (hp : 256 ^ params.unitL + 256 ^ 32 ≤ p)
    (origin iv padded : Bytes) (hlen : origin.length = params.dataL)
    (hpad : copyAndPad origin params.dataL params.unitL = .ok padded)
    (S : Sealing) (hd : describes S H params p n c iv) (deps : List (List Bytes)) (chain : Bytes)
    (k j : Nat) (hk : k < n) (hj : j < c) :
    let b := (List.range c).map (fun j => readFile padded ((k * c + j) * params.unitPl) params.unitPl)
    let s := S.sealState deps chain b 0 j
    S.encoderInput deps chain s j =
      leNat (readFile padded ((k * c + j) * params.unitPl) params.unitPl) + leNat (H (S.maskInput deps chain s j)) := by
  intro b s
  have hu : s.getD j [] = readFile padded ((k * c + j) * params.unitPl) params.unitPl := by
    have h1 : s.getD j [] = b.getD j [] := firstRound_unit S deps chain b j j (Nat.le_refl _)
    rw [h1, List.getD_eq_getElem?_getD, List.getElem?_map, List.getElem?_range hj]
    rfl
  have hlt : leNat (readFile padded ((k * c + j) * params.unitPl) params.unitPl) < 256 ^ params.unitL := by
    apply padded_units_small cfg hlen hpad
    calc k * c + j < (k + 1) * c := by rw [Nat.add_mul]; omega
      _ ≤ n * c := Nat.mul_le_mul_right _ hk
  have hh := leNat_lt (H (S.maskInput deps chain s j))
  rw [hH] at hh
  unfold Sealing.encoderInput
  rw [hu, hd.1, hd.2.2.1, Nat.mod_eq_of_lt (by omega)]

/-- With a single round, and a hash that never returns 32 zero bytes, every file is retrieved. -/
theorem C86_one_round (H : Bytes → Bytes) (hH : ∀ x, (H x).length = 32) (hz : ∀ x, H x ≠ zeros 32) (params : PosPara)
    (p n c : Nat) (cfg : Config params p n c) (hp : 256 ^ params.unitL + 256 ^ 32 ≤ p) (hr : params.sealRounds = 1)
    (hmode : params.modeL = 0) (hn : LongCountOk n params.cntL) (hS : ShortModeOk params n c)
    (origin iv : Bytes) (hlen : origin.length = params.dataL) :
    storeAndRetrieve H params origin (p : Int) iv = .ok origin := by
  obtain ⟨padded, hpad, -, -, -⟩ := padded_unitsBelow cfg hlen
  have hd : describes (sealingOf H params p c iv (longOf H params n) (shortOf H params n c)) H params p n c iv :=
    ⟨rfl, rfl, rfl, rfl, rfl, rfl, rfl, rfl, rfl⟩
  refine C85_retrieval H hH params p n c cfg hmode hn hS origin iv padded hlen hpad _ hd ?_
  intro k hk
  rw [Sealing.noZeroEncoded_iff]
  generalize Sealing.dependencies _ _ k = deps
  generalize Sealing.chaining _ _ k = chain
  intro r hr' j hj
  have hr0 : r = 0 := by
    have : r < params.sealRounds := hr'
    omega
  subst hr0
  rw [C86_first_round H hH params p n c cfg hp origin iv padded hlen hpad _ hd deps chain k j hk hj]
  intro h0
  have h0 := (Nat.add_eq_zero_iff.mp h0).2
  apply hz
  rw [eq_leBytes (hH _) h0]
  decide +kernel

/-- Meets the hypotheses: any file of 252 bytes, a hash that never returns zeros. -/
example (origin iv : Bytes) (h : origin.length = 252) : ∃ p : Nat, (p : Int) = P_512 ∧
    storeAndRetrieve (fun x => UInt8.ofNat (x.length % 255 + 1) :: zeros 31) (toyParams 2 2 0 0 1 1 1) origin (p : Int) iv =
      .ok origin := by
  obtain ⟨p, hp, cfg⟩ := toy_config 2 2 0 0 1 1 1 (by norm_num)
  refine ⟨p, hp, C86_one_round _ (fun x => ?_) (fun x => ?_) _ p 2 2 cfg ?_ rfl rfl (by omega)
    (hashModes_ok (n := 2) (c := 2) rfl rfl (by omega) (by omega)).2 origin iv h⟩
  · show (zeros 31).length + 1 = 32
    rw [zeros_length]
  · intro e
    have e : UInt8.ofNat (x.length % 255 + 1) = 0 := (List.cons.inj e).1
    have := congrArg UInt8.toNat e
    simp at this
    omega
  · have : p = P_512.toNat := by rw [← hp]; rfl
    rw [this]
    show 256 ^ 63 + 256 ^ 32 ≤ _
    decide +kernel

/-- The shipped sizes satisfy the condition on the modulus, so only the later rounds can meet a zero. -/
theorem C86_shipped (l : Nat) : 256 ^ (genPosdata l).unitL + 256 ^ 32 ≤ P_512.toNat := by
  have : (genPosdata l).unitL = 63 := by
    unfold genPosdata
    split
    · rfl
    · split
      · rfl
      · split <;> rfl
  rw [this, show P_512.toNat = 10711734159436774894171334484137626675507759979749407253125221261168087448899876831488509454695461974257751111853456275453329348448922191916590010377596767 from rfl]
  norm_num

end PoS
