import Verif.Model.WorkflowStop
import Verif.Properties.Workflow
import Verif.Properties.Interrupt
import Verif.Properties.Replica

/-
C108: what a stopped run of `seal_and_unseal` leaves behind.
-/

namespace PoS

set_option linter.unusedSectionVars false

/-! ### records cut short -/

theorem readField_take (s rest : Bytes) (h : s.length < 2 ^ 64) (w : Nat) :
    readField ((u64LE s.length ++ s ++ rest).take w) =
      if w < 8 + s.length then none else some (s, rest.take (w - (8 + s.length))) := by
  have h8 := u64LE_length s.length
  by_cases hw : w < 8 + s.length
  · rw [if_pos hw]
    unfold readField
    by_cases h1 : ((u64LE s.length ++ s ++ rest).take w).length < 8
    · rw [if_pos h1]
    · rw [if_neg h1]
      have hw8 : 8 ≤ w := by
        rw [List.length_take] at h1; omega
      have e1 : ((u64LE s.length ++ s ++ rest).take w).take 8 = u64LE s.length := by
        rw [List.take_take, Nat.min_eq_left hw8, List.append_assoc, ← h8, List.take_left]
      simp only [e1, leNat_u64LE _ h]
      rw [if_pos]
      rw [List.length_drop, List.length_take]
      omega
  · rw [if_neg hw]
    have e : (u64LE s.length ++ s ++ rest).take w = u64LE s.length ++ s ++ rest.take (w - (8 + s.length)) := by
      rw [List.take_append, List.take_of_length_le (by rw [List.length_append, h8]; omega), List.length_append, h8]
    rw [e, readField_append _ _ h]

/-- A record of which not all bytes are there does not load. -/
theorem loadData_take (key : Int) (iv : Bytes) (hk : (intToString key).length < 2 ^ 64) (hi : iv.length < 2 ^ 64)
    (w : Nat) (hw : w < (pubDataBytes key iv).length) : loadData ((pubDataBytes key iv).take w) = .error .unwrap := by
  have hlen : (pubDataBytes key iv).length = 8 + (intToString key).length + (8 + iv.length) := by
    unfold pubDataBytes
    simp only [List.length_append, u64LE_length]
  rw [hlen] at hw
  unfold loadData pubDataBytes
  simp only []
  rw [readField_take _ _ hk]
  split
  · next h => rfl
  · next s r h =>
    split at h
    · exact absurd h (by simp)
    · next hge =>
      simp only [Option.some.injEq, Prod.mk.injEq] at h
      obtain ⟨rfl, rfl⟩ := h
      have := readField_take iv [] hi (w - (8 + (intToString key).length))
      rw [List.append_nil] at this
      rw [this, if_pos (by omega)]

/-- The first `w` bytes of a record written over an older record with the same key and an initial vector
of the same length: it loads as the key and a mixture of the two initial vectors. -/
theorem loadData_over (key : Int) (iv iv₀ old : Bytes) (hk : (intToString key).length < 2 ^ 64)
    (hi : iv.length < 2 ^ 64) (hl : iv₀.length = iv.length) (w : Nat) :
    loadData (writeAt (saveData old key iv₀) 0 ((pubDataBytes key iv).take w)) =
      .ok (key, iv.take (w - ((pubDataBytes key iv).length - iv.length)) ++
        iv₀.drop (w - ((pubDataBytes key iv).length - iv.length))) := by
  set P : Bytes := u64LE (intToString key).length ++ intToString key ++ u64LE iv.length with hP
  have hB : pubDataBytes key iv = P ++ iv := by
    rw [hP]; unfold pubDataBytes; simp only [List.append_assoc]
  have hB0 : pubDataBytes key iv₀ = P ++ iv₀ := by
    rw [hP]; unfold pubDataBytes; simp only [List.append_assoc, hl]
  have hh : (pubDataBytes key iv).length - iv.length = P.length := by
    rw [hB, List.length_append]; omega
  rw [hh]
  clear_value P
  set m := iv.take (w - P.length) ++ iv₀.drop (w - P.length) with hm
  have hml : m.length = iv.length := by
    rw [hm, List.length_append, List.length_take, List.length_drop]; omega
  have e0 : saveData old key iv₀ = P ++ iv₀ ++ old.drop (P ++ iv₀).length := by
    unfold saveData writeAt
    rw [hB0]
    simp [zeros]
  have e : writeAt (saveData old key iv₀) 0 ((pubDataBytes key iv).take w) =
      u64LE (intToString key).length ++ intToString key ++
        (u64LE m.length ++ m ++ old.drop (P ++ iv₀).length) := by
    have e1 : writeAt (saveData old key iv₀) 0 ((pubDataBytes key iv).take w) =
        P ++ (m ++ old.drop (P ++ iv₀).length) := by
      rw [e0, hB]
      unfold writeAt
      simp only [List.take_zero, Nat.zero_sub, zeros, List.replicate_zero, List.nil_append, Nat.zero_add]
      by_cases hw : w ≤ P.length
      · have : w - P.length = 0 := by omega
        rw [hm, this, List.take_zero, List.drop_zero, List.nil_append, List.take_append_of_le_length hw,
          List.length_take, Nat.min_eq_left hw, List.append_assoc, List.drop_append_of_le_length hw, ← List.append_assoc,
          List.take_append_drop]
      · rw [List.take_append, List.take_of_length_le (by omega), List.length_append, List.length_take, List.append_assoc,
          List.append_assoc, List.drop_append, List.drop_of_length_le (by omega), List.nil_append, hm]
        congr 1
        rw [List.append_assoc]
        congr 1
        have : P.length + min (w - P.length) iv.length - P.length = min (w - P.length) iv.length := by omega
        rw [this, List.drop_append_of_le_length (by omega)]
        congr 1
        by_cases h2 : w - P.length ≤ iv.length
        · rw [Nat.min_eq_left h2]
        · rw [Nat.min_eq_right (by omega), List.drop_of_length_le (by omega), List.drop_of_length_le (by omega)]
    rw [e1, hP, hml]
    simp only [List.append_assoc]
  unfold loadData
  rw [e, readField_append _ _ hk]
  simp only []
  rw [readField_append _ _ (by omega)]
  simp only [intFromStr_toString]

theorem prepareKey_length (unitPl : Nat) : (intToString (prepareKey unitPl)).length < 2 ^ 64 := by
  have : (intToString (prepareKey unitPl)).length ≤ 1000 + 1 := by
    refine C17_key_length _ 1000 (by norm_num) ?_
    unfold prepareKey
    split
    · decide +kernel
    · split
      · decide +kernel
      · split <;> decide +kernel
  omega

/-! ### C108: stopped runs -/

/-- The origin file is as before at every moment at which the run can be stopped, and the unsealed file
is, until `copy_and_compress` begins. -/
theorem C108_untouched (H : Bytes → Bytes) (params : PosPara) (d d' : Disk) (rng : Nat → UInt8) (s : StopPoint)
    (h : stoppedDisk H params d rng s = .ok d') :
    d'.origin = d.origin ∧ ((∀ w, s ≠ .compressing w) → d'.unsealed = d.unsealed) := by
  cases s <;> simp only [stoppedDisk, bind_eq_ok] at h
  case padding w =>
    obtain ⟨o, -, pd, -, h⟩ := h
    cases h
    exact ⟨rfl, fun _ => rfl⟩
  case sealing k w =>
    obtain ⟨o, -, pd, -, mid, -, h⟩ := h
    cases h
    exact ⟨rfl, fun _ => rfl⟩
  case saving w =>
    obtain ⟨o, -, pd, -, st, -, h⟩ := h
    cases h
    exact ⟨rfl, fun _ => rfl⟩
  case unsealing m w =>
    obtain ⟨o, -, pd, -, st, -, mid, -, h⟩ := h
    cases h
    exact ⟨rfl, fun _ => rfl⟩
  case compressing w =>
    obtain ⟨o, -, pd, -, st, -, pl, -, out, -, h⟩ := h
    cases h
    exact ⟨rfl, fun h => absurd rfl (h w)⟩

/-- A stopped run can be started again: with the same random bytes the second run ends as if there had
been no first one (the same panic, or the same sealed and unsealed files and public data that load to
the same). -/
theorem C108_run_again (H : Bytes → Bytes) (params : PosPara) (d d' : Disk) (rng rng' : Nat → UInt8) (s : StopPoint)
    (h : stoppedDisk H params d rng s = .ok d') (u : Bool) :
    (∀ e, sealAndUnseal H params d rng' u = .error e → sealAndUnseal H params d' rng' u = .error e) ∧
    ∀ e, sealAndUnseal H params d rng' u = .ok e → ∃ e' pub pub', sealAndUnseal H params d' rng' u = .ok e' ∧
      e'.origin = e.origin ∧ e'.sealed = e.sealed ∧ (u = true → e'.unsealed = e.unsealed) ∧
      e.pubdata = some pub ∧ e'.pubdata = some pub' ∧
      loadData pub = .ok (prepareParams params.unitPl rng') ∧
      loadData pub' = .ok (prepareParams params.unitPl rng') := by
  have ho := (C108_untouched H params d d' rng s h).1
  unfold sealAndUnseal
  rw [ho]
  cases openFile d.origin with
  | error e =>
    exact ⟨fun e' h => h, fun e' h => by cases h⟩
  | ok origin =>
    simp only [bind_ok]
    cases copyAndPad origin params.dataL params.unitL with
    | error e => exact ⟨fun e' h => h, fun e' h => by cases h⟩
    | ok padded =>
      simp only [bind_ok]
      cases sealFile H params padded (prepareParams params.unitPl rng').1 (prepareParams params.unitPl rng').2 with
      | error e => exact ⟨fun e' h => h, fun e' h => by cases h⟩
      | ok st =>
        simp only [bind_ok]
        cases u with
        | false =>
          refine ⟨fun e' h => (by cases h), fun e he => ?_⟩
          cases he
          exact ⟨_, _, _, rfl, rfl, rfl, fun h => (by cases h), rfl, rfl, C17_shipped _ _ _, C17_shipped _ _ _⟩
        | true =>
          simp only [if_true]
          cases unsealFile H params st.file (prepareParams params.unitPl rng').1 (prepareParams params.unitPl rng').2 with
          | error e => exact ⟨fun e' h => h, fun e' h => by cases h⟩
          | ok plain =>
            simp only [bind_ok]
            cases copyAndCompress plain params.dataL params.unitL params.unitPl with
            | error e => exact ⟨fun e' h => h, fun e' h => by cases h⟩
            | ok out =>
              refine ⟨fun e' h => (by cases h), fun e he => ?_⟩
              cases he
              exact ⟨_, _, _, rfl, rfl, rfl, fun _ => rfl, rfl, rfl, C17_shipped _ _ _, C17_shipped _ _ _⟩

/-- For the shipped parameter sets, whatever the stopped run left: the second run gives the original
back. -/
theorem C108_shipped_run_again (H : Bytes → Bytes) (hH : ∀ x, (H x).length = 32) (l : Nat) (d d' : Disk)
    (origin padded : Bytes) (ho : d.origin = some origin) (hlen : origin.length = (genPosdata l).dataL)
    (rng rng' : Nat → UInt8) (s : StopPoint) (h : stoppedDisk H (genPosdata l) d rng s = .ok d')
    (hpad : copyAndPad origin (genPosdata l).dataL (genPosdata l).unitL = .ok padded)
    (hz : NoZeroInput H (genPosdata l) padded P_512 ((List.range 128).map rng')) :
    ∃ pub, sealAndUnseal H (genPosdata l) d' rng' true =
        .ok { origin := some origin, sealed := some padded, unsealed := some origin, pubdata := some pub } ∧
      loadData pub = .ok (P_512, (List.range 128).map rng') :=
  C71_with_unseal H hH l d' origin padded (by rw [(C108_untouched H _ d d' rng s h).1, ho]) hlen rng' hpad hz

/-- The public data after a stop.  Until `save_data` they are those of the earlier run, or missing; the
initial vector of the new sealing is then on no file.  After `save_data` they load as the new key and
initial vector.  In between they do not load if there was no file before; but over the record of an
earlier run with the same modulus they load without complaint as a mixture of both initial vectors. -/
theorem C108_public_data (H : Bytes → Bytes) (params : PosPara) (d d' : Disk) (rng : Nat → UInt8) (s : StopPoint)
    (h : stoppedDisk H params d rng s = .ok d') :
    match s with
    | .padding _ => d'.pubdata = d.pubdata
    | .sealing _ _ => d'.pubdata = d.pubdata
    | .saving w => ∃ pub, d'.pubdata = some pub ∧
        (w < (pubDataBytes (prepareKey params.unitPl) ((List.range 128).map rng)).length →
          d.pubdata = none → loadData pub = .error .unwrap) ∧
        (∀ old iv₀, iv₀.length = 128 → d.pubdata = some (saveData old (prepareKey params.unitPl) iv₀) →
          ∃ j, j = w - ((intToString (prepareKey params.unitPl)).length + 16) ∧
            loadData pub = .ok (prepareKey params.unitPl, ((List.range 128).map rng).take j ++ iv₀.drop j))
    | .unsealing _ _ => ∃ pub, d'.pubdata = some pub ∧
        loadData pub = .ok (prepareKey params.unitPl, (List.range 128).map rng)
    | .compressing _ => ∃ pub, d'.pubdata = some pub ∧
        loadData pub = .ok (prepareKey params.unitPl, (List.range 128).map rng) := by
  cases s <;> simp only [stoppedDisk, bind_eq_ok] at h
  case padding w =>
    obtain ⟨o, -, pd, -, h⟩ := h
    cases h
    rfl
  case sealing k w =>
    obtain ⟨o, -, pd, -, mid, -, h⟩ := h
    cases h
    rfl
  case saving w hs =>
    obtain ⟨o, -, pd, -, st, -, h⟩ := h
    cases h
    have hi : ((List.range 128).map rng).length = 128 := by simp
    refine ⟨_, rfl, fun hw hn => ?_, fun old iv₀ h0 hold => ?_⟩
    · have := loadData_take _ ((List.range 128).map rng) (prepareKey_length params.unitPl) (by omega) w hw
      rw [hn]
      simp only [Option.getD_none, writeAt, List.take_nil, List.drop_nil, List.length_nil, Nat.sub_zero, zeros,
        List.replicate_zero, List.nil_append, List.append_nil]
      exact this
    · refine ⟨_, rfl, ?_⟩
      have := loadData_over _ ((List.range 128).map rng) iv₀ old (prepareKey_length params.unitPl) (by omega)
        (by omega) w
      have hb : (pubDataBytes (prepareKey params.unitPl) ((List.range 128).map rng)).length -
          ((List.range 128).map rng).length = (intToString (prepareKey params.unitPl)).length + 16 := by
        unfold pubDataBytes
        simp only [List.length_append, u64LE_length]
        omega
      rw [hb] at this
      rw [hold]
      exact this
  case unsealing m w =>
    obtain ⟨o, -, pd, -, st, -, mid, -, h⟩ := h
    cases h
    exact ⟨_, rfl, C17_shipped _ _ _⟩
  case compressing w =>
    obtain ⟨o, -, pd, -, st, -, pl, -, out, -, h⟩ := h
    cases h
    exact ⟨_, rfl, C17_shipped _ _ _⟩

/-- What the sealed file is still worth without the initial vector: a run with a shipped parameter set
stopped in `seal` after `k` blocks and `w` bytes.  `unseal` called for `k` blocks with any initial vector
whatever brings back the padded file, except the first block and the `w` bytes. -/
theorem C108_without_iv (H : Bytes → Bytes) (hH : ∀ x, (H x).length = 32) (l : Nat) (d d' : Disk)
    (origin padded : Bytes) (ho : d.origin = some origin) (hlen : origin.length = (genPosdata l).dataL)
    (rng : Nat → UInt8) (k w : Nat) (hk : 0 < k ∧ k < 256) (hw : w ≤ (genPosdata l).blockPl)
    (h : stoppedDisk H (genPosdata l) d rng (.sealing k w) = .ok d')
    (hpad : copyAndPad origin (genPosdata l).dataL (genPosdata l).unitL = .ok padded)
    (hz : NoZeroInput H (genPosdata l) padded P_512 ((List.range 128).map rng)) (iv : Bytes) :
    ∃ mid back, d'.sealed = some mid ∧
      unsealFile H { genPosdata l with dataL := k * (genPosdata l).blockL } mid P_512 iv = .ok back ∧
      back.length = padded.length ∧
      ∀ x, (genPosdata l).blockPl ≤ x →
        x < k * (genPosdata l).blockPl ∨ k * (genPosdata l).blockPl + w ≤ x → back[x]? = padded[x]? := by
  obtain ⟨c, hc, cfg, hL, hS⟩ := genPosdata_config l _ prime_P_512 (by norm_num) (by norm_num) (by norm_num)
  obtain ⟨pd, g1, g2, g3, g4⟩ := padded_unitsBelow cfg hlen
  rw [hpad] at g1
  cases g1
  obtain ⟨mL, mS⟩ := hashModes_ok (params := genPosdata l) (n := 256) (c := c) hL hS (by omega) (by omega)
  obtain ⟨st, mid, a1, a2, a3, a4, a5⟩ := C96_seal_stopped H hH _ _ 256 c cfg mL mS padded
    ((List.range 128).map rng) (by omega) g3 k w hk.2 hw
  obtain ⟨b, b1, b2, b3⟩ := a5 hL (hz st a1)
  have hB : 0 < (genPosdata l).blockL := by rw [cfg.block]; exact Nat.mul_pos cfg.c_pos cfg.unit_pos
  rw [← C96_unseal_call H _ 256 k hB cfg.data hL hS (by omega) (Or.inl (by omega))] at b1
  have cfg' : Config { genPosdata l with dataL := k * (genPosdata l).blockL } _ k c :=
    ⟨cfg.unit_pos, cfg.unit_pl, cfg.c_pos, cfg.block, cfg.block_pl, rfl, cfg.prime, cfg.mod4, cfg.above_units,
      cfg.above_hash, cfg.fits⟩
  obtain ⟨mL', mS'⟩ := hashModes_ok (params := { genPosdata l with dataL := k * (genPosdata l).blockL }) (n := k)
    (c := c) hL hS (by omega) (by omega)
  have hle : k * (genPosdata l).blockPl ≤ mid.length := by
    have : k * (genPosdata l).blockPl ≤ 256 * (genPosdata l).blockPl := Nat.mul_le_mul_right _ (by omega)
    omega
  obtain ⟨o, o', e1, e2, e3, e4⟩ := C87_unseal H hH _ _ k c cfg' mL' mS' mid ((List.range 128).map rng) iv hle
  have : b = o := by
    have := b1.symm.trans e1
    injection this
  subst this
  refine ⟨mid, o', ?_, e2, by omega, fun x hx hor => ?_⟩
  · simp only [stoppedDisk, ho, openFile, bind_ok, hpad, genPosdata_key] at h
    have a2' : sealStopped H (genPosdata l) padded P_512 ((List.range 128).map rng) k w = .ok mid := a2
    rw [a2', bind_ok] at h
    cases h
    rfl
  · rw [← e4 x hx, b3 x, if_neg (by omega)]

/-- A run with a shipped parameter set stopped in `save_data`, over the record of an earlier run: with
what the public data then say, `unseal` succeeds and gives the padded file from its second block on;
whether the first block comes back is a matter of how many bytes were written. -/
theorem C108_mixed_record (H : Bytes → Bytes) (hH : ∀ x, (H x).length = 32) (l : Nat) (d d' : Disk)
    (origin padded old iv₀ : Bytes) (ho : d.origin = some origin) (hlen : origin.length = (genPosdata l).dataL)
    (rng : Nat → UInt8) (w : Nat) (hold : d.pubdata = some (saveData old P_512 iv₀)) (h0 : iv₀.length = 128)
    (h : stoppedDisk H (genPosdata l) d rng (.saving w) = .ok d')
    (hpad : copyAndPad origin (genPosdata l).dataL (genPosdata l).unitL = .ok padded)
    (hz : NoZeroInput H (genPosdata l) padded P_512 ((List.range 128).map rng)) :
    ∃ sealed pub iv back, d'.sealed = some sealed ∧ d'.pubdata = some pub ∧ loadData pub = .ok (P_512, iv) ∧
      iv = ((List.range 128).map rng).take (w - 171) ++ iv₀.drop (w - 171) ∧
      unsealFile H (genPosdata l) sealed P_512 iv = .ok back ∧ back.length = padded.length ∧
      ∀ x, (genPosdata l).blockPl ≤ x → back[x]? = padded[x]? := by
  obtain ⟨c, hc, cfg, hL, hS⟩ := genPosdata_config l _ prime_P_512 (by norm_num) (by norm_num) (by norm_num)
  obtain ⟨mL, mS⟩ := hashModes_ok (params := genPosdata l) (n := 256) (c := c) hL hS (by omega) (by omega)
  obtain ⟨pd, st, g1, g2, -⟩ := C02_shipped_P512 H hH l origin ((List.range 128).map rng) hlen
  rw [hpad] at g1
  cases g1
  have hkey : prepareKey (genPosdata l).unitPl = P_512 := congrArg Prod.fst (genPosdata_key l rng)
  obtain ⟨pub, p1, -, p3⟩ := C108_public_data H (genPosdata l) d d' rng (.saving w) h
  rw [hkey] at p3
  obtain ⟨j, hj, p4⟩ := p3 old iv₀ h0 hold
  have h154 : (intToString P_512).length = 155 := by decide +kernel
  have hj' : j = w - 171 := by omega
  clear hj h154
  obtain ⟨back, b1, b2, b3⟩ := C87_recover H hH _ _ 256 c cfg hL (by omega) mS origin ((List.range 128).map rng)
    (((List.range 128).map rng).take j ++ iv₀.drop j) padded hlen st hpad g2 (hz st g2)
  refine ⟨st.file, pub, ((List.range 128).map rng).take j ++ iv₀.drop j, back, ?_, p1, p4, by rw [hj'], b1, b2, b3⟩
  simp only [stoppedDisk, ho, openFile, bind_ok, hpad, genPosdata_key, g2] at h
  cases h
  rfl

set_option maxRecDepth 100000 in
/-- The statements are about something: two blocks of one unit, public data of an earlier run whose initial
vector is all sevens.  Stopped after one block and 20 bytes of the second, the public data are the old ones,
and undoing the block with the old initial vector restores the rest of the second block, but not the first.
Stopped after 200 bytes of the record, the public data load as 29 new and 99 old bytes, and unsealing with
them restores the second block, but not the first. -/
example :
    (let params := toyParams 2 1 0 0 1 1 2
    let rng : Nat → UInt8 := fun i => UInt8.ofNat i
    let d : Disk := ⟨some (toyFile 126), none, none, some (pubDataBytes P_512 (List.replicate 128 7))⟩
    match copyAndPad (toyFile 126) 126 63, stoppedDisk toyHash params d rng (.sealing 1 20),
        stoppedDisk toyHash params d rng (.saving 200) with
    | .ok padded, .ok ⟨_, some half, _, some pub⟩, .ok ⟨_, some full, _, some mixed⟩ =>
      (match loadData pub, loadData mixed with
      | .ok (key, iv), .ok (key', iv') =>
        (match unsealFile toyHash { params with dataL := 63 } half key iv, unsealFile toyHash params full key' iv' with
        | .ok a, .ok b => decide (key = P_512 ∧ iv = List.replicate 128 7 ∧ key' = P_512 ∧
            iv' = (List.range 29).map rng ++ List.replicate 99 7 ∧
            a.take 64 ≠ padded.take 64 ∧ a.drop 84 = padded.drop 84 ∧ a ≠ padded ∧
            b.take 64 ≠ padded.take 64 ∧ b.drop 64 = padded.drop 64)
        | _, _ => false)
      | _, _ => false)
    | _, _, _ => false) = true := by decide +kernel

end PoS
