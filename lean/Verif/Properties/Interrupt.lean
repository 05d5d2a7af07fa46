import Verif.Proofs.Interrupt
import Verif.Properties.Storage
import Verif.Properties.Bytes

/-
C96: `seal` and `unseal` stopped in the middle, and what the possible ways of going on lead to.
-/

namespace PoS

/-- An `unseal` that is stopped after `m` blocks and `w` bytes of the next one.  `out` is the result of
the undisturbed run: the last `m` blocks and those `w` bytes are as in `out`, everything else is as
before. -/
theorem C96_unseal_stopped (H : Bytes → Bytes) (hH : ∀ x, (H x).length = 32) (params : PosPara)
    (p n c : Nat) (cfg : Config params p n c) (hL : LongModeOk params n) (hS : ShortModeOk params n c)
    (file iv : Bytes) (hlen : n * params.blockPl ≤ file.length) (m w : Nat) (hm : m < n) (hw : w ≤ params.blockPl) :
    ∃ out mid, unsealFile H params file (p : Int) iv = .ok out ∧ unsealStopped H params file (p : Int) iv m w = .ok mid ∧
      mid.length = file.length ∧
      ∀ x, mid[x]? =
        if x < (n - 1 - m) * params.blockPl then file[x]?
        else if x < (n - 1 - m) * params.blockPl + w then out[x]?
        else if x < (n - m) * params.blockPl then file[x]?
        else out[x]? := by
  have hBpos : 0 < params.blockPl := by
    rw [cfg.block_pl, cfg.unit_pl]; exact Nat.mul_pos cfg.c_pos (by omega)
  have hd : describesUnseal (sealingOf H params p c iv (unsealLongOf H params n) (shortOf H params n c)) H params p n c iv :=
    ⟨rfl, rfl, rfl, rfl, rfl, rfl, rfl, rfl⟩
  obtain ⟨out, o1, o2, o3, o4⟩ := unsealFrom_exact hH cfg hL hS hd hlen (Nat.le_refl n)
  obtain ⟨s, s1, s2, s3, s4⟩ := unsealPart_exact hH cfg hL hS hd hlen (m := m) (by omega)
  obtain ⟨t, t1, t2, t3, t4⟩ := unsealPart_exact hH cfg hL hS hd hlen (m := m + 1) (by omega)
  have same : ∀ (f : Bytes) (a : Nat), f.length = file.length → a ≤ n →
      (∀ j, a ≤ j → j < n → blockOf params f j = blockOf params out j) →
      (∀ x, x < a * params.blockPl ∨ n * params.blockPl ≤ x → f[x]? = file[x]?) →
      ∀ x, f[x]? = if x < a * params.blockPl then file[x]? else out[x]? := by
    intro f a hf ha hb hx x
    by_cases h : x < a * params.blockPl
    · rw [if_pos h, hx x (Or.inl h)]
    · rw [if_neg h]
      by_cases h2 : x < n * params.blockPl
      · obtain ⟨j, hj, j1, j2⟩ := in_block hBpos h2
        have haj : a ≤ j := by
          by_contra hcon
          have : j * params.blockPl + params.blockPl ≤ a * params.blockPl := block_index (by omega)
          omega
        exact blockOf_bytes (by omega) (hb j haj hj) j1 j2
      · rw [hx x (Or.inr (by omega)), o4 x (by omega)]
  have es := same s (n - m) s3 (by omega) (fun j h1 h2 => by rw [s2 j h1 h2, o2 j h2]) s4
  have et := same t (n - (m + 1)) t3 (by omega) (fun j h1 h2 => by rw [t2 j h1 h2, o2 j h2]) t4
  rw [show n - (m + 1) = n - 1 - m by omega] at et
  have hst : s.length = t.length := by omega
  refine ⟨out, tornFile s t ((n - 1 - m) * params.blockPl + w), by rw [unsealFile_eq cfg]; exact o1, ?_,
    by rw [tornFile_length hst]; exact s3, fun x => ?_⟩
  · unfold unsealStopped
    rw [cfg.div, bind_ok, s1, bind_ok, t1, bind_ok]
    rfl
  · rw [tornFile_getElem? hst, es, et]
    have h1 : (n - m) * params.blockPl = (n - 1 - m) * params.blockPl + params.blockPl := by
      rw [show n - m = n - 1 - m + 1 by omega, Nat.add_mul, Nat.one_mul]
    by_cases a1 : x < (n - 1 - m) * params.blockPl
    · simp [a1, show x < (n - 1 - m) * params.blockPl + w by omega]
    · by_cases a2 : x < (n - 1 - m) * params.blockPl + w
      · simp [a1, a2]
      · simp only [a1, a2, if_false]

/-- Going on where the `unseal` was stopped: running the loop over the blocks that are not done gives
the result of the undisturbed run, except inside the block that was half written. -/
theorem C96_resume (H : Bytes → Bytes) (hH : ∀ x, (H x).length = 32) (params : PosPara)
    (p n c : Nat) (cfg : Config params p n c) (hL : LongModeOk params n) (hS : ShortModeOk params n c)
    (file iv : Bytes) (hlen : n * params.blockPl ≤ file.length) (m w : Nat) (hm : m < n) (hw : w ≤ params.blockPl)
    (out mid : Bytes) (hout : unsealFile H params file (p : Int) iv = .ok out)
    (hmid : unsealStopped H params file (p : Int) iv m w = .ok mid) :
    ∃ out', unsealFrom H params mid (p : Int) iv (n - m) = .ok out' ∧ out'.length = out.length ∧
      (∀ x, x < (n - 1 - m) * params.blockPl ∨ (n - m) * params.blockPl ≤ x → out'[x]? = out[x]?) ∧
      (w = 0 → out' = out) := by
  have hBpos : 0 < params.blockPl := by
    rw [cfg.block_pl, cfg.unit_pl]; exact Nat.mul_pos cfg.c_pos (by omega)
  have hd : describesUnseal (sealingOf H params p c iv (unsealLongOf H params n) (shortOf H params n c)) H params p n c iv :=
    ⟨rfl, rfl, rfl, rfl, rfl, rfl, rfl, rfl⟩
  obtain ⟨o, md, a1, a2, a3, a4⟩ := C96_unseal_stopped H hH params p n c cfg hL hS file iv hlen m w hm hw
  rw [hout] at a1; rw [hmid] at a2
  cases a1; cases a2
  obtain ⟨o, b1, b2, b3, b4⟩ := unsealFrom_exact hH cfg hL hS hd hlen (Nat.le_refl n)
  rw [← unsealFile_eq cfg, hout] at b1
  cases b1
  obtain ⟨out', d1, d2, d3, d4⟩ := unsealFrom_exact hH cfg hL hS hd (file := mid) (by omega) (k := n - m) (by omega)
  have h1 : (n - m) * params.blockPl = (n - 1 - m) * params.blockPl + params.blockPl := by
    rw [show n - m = n - 1 - m + 1 by omega, Nat.add_mul, Nat.one_mul]
  have key : ∀ v, v = n - 1 - m ∨ (v = n - m ∧ w = 0) → ∀ x, x < v * params.blockPl → out'[x]? = out[x]? := by
    intro v hv x hx
    obtain ⟨j, hj, j1, j2⟩ := in_block hBpos hx
    refine blockOf_bytes (by omega) ?_ j1 j2
    rw [d2 j (by omega), b2 j (by omega)]
    congr 1
    refine unsealedBlock_below hH cfg hL hd (by omega) fun y hy => ?_
    have hle : (j + 1) * params.blockPl ≤ v * params.blockPl := Nat.mul_le_mul_right _ hj
    rw [a4 y]
    rcases hv with hv | ⟨hv, hw0⟩
    · rw [hv] at hle
      rw [if_pos (by omega)]
    · rw [hv] at hle
      by_cases a1 : y < (n - 1 - m) * params.blockPl
      · rw [if_pos a1]
      · rw [if_neg a1, if_neg (by omega), if_pos (by omega)]
  have high : ∀ x, (n - m) * params.blockPl ≤ x → out'[x]? = out[x]? := by
    intro x hx
    rw [d4 x hx, a4 x, if_neg (by omega), if_neg (by omega), if_neg (by omega)]
  refine ⟨out', d1, by omega, fun x hx => ?_, fun hw0 => ?_⟩
  · rcases hx with hx | hx
    · exact key _ (Or.inl rfl) x hx
    · exact high x hx
  · apply List.ext_getElem?
    intro x
    rcases Nat.lt_or_ge x ((n - m) * params.blockPl) with h | h
    · exact key _ (Or.inr ⟨rfl, hw0⟩) x h
    · exact high x h

/-- Calling `unseal` again on the file left by a stopped `unseal`: the blocks in front of the place of
the stop come out right, all others are unsealed once more, or half unsealed and then unsealed. -/
theorem C96_rerun (H : Bytes → Bytes) (hH : ∀ x, (H x).length = 32) (params : PosPara)
    (p n c : Nat) (cfg : Config params p n c) (hL : LongModeOk params n) (hS : ShortModeOk params n c)
    (file iv : Bytes) (hlen : n * params.blockPl ≤ file.length) (m w : Nat) (hm : m < n) (hw : w ≤ params.blockPl)
    (out mid : Bytes) (hout : unsealFile H params file (p : Int) iv = .ok out)
    (hmid : unsealStopped H params file (p : Int) iv m w = .ok mid)
    (S : Sealing) (hd : describesUnseal S H params p n c iv) :
    ∃ out', unsealFile H params mid (p : Int) iv = .ok out' ∧ out'.length = out.length ∧
      (∀ x, x < (n - 1 - m) * params.blockPl → out'[x]? = out[x]?) ∧
      (w = 0 → ∀ x, x < (n - m) * params.blockPl → out'[x]? = out[x]?) ∧
      ∀ k, n - 1 - m ≤ k → k < n → readFile out' (k * params.blockPl) params.blockPl =
        (S.unsealedBlock ((undelay p)^[params.vdeRounds]) (fun k => (List.range c).map
          (fun j => readFile mid ((k * c + j) * params.unitPl) params.unitPl)) k).flatten := by
  have hBpos : 0 < params.blockPl := by
    rw [cfg.block_pl, cfg.unit_pl]; exact Nat.mul_pos cfg.c_pos (by omega)
  obtain ⟨o, md, a1, a2, a3, a4⟩ := C96_unseal_stopped H hH params p n c cfg hL hS file iv hlen m w hm hw
  rw [hout] at a1; rw [hmid] at a2
  cases a1; cases a2
  obtain ⟨o, b1, b2, b3, b4⟩ := unsealFrom_exact hH cfg hL hS hd hlen (Nat.le_refl n)
  rw [← unsealFile_eq cfg, hout] at b1
  cases b1
  obtain ⟨out', d1, d2, d3, d4⟩ := unsealFrom_exact hH cfg hL hS hd (file := mid) (by omega) (Nat.le_refl n)
  have h1 : (n - m) * params.blockPl = (n - 1 - m) * params.blockPl + params.blockPl := by
    rw [show n - m = n - 1 - m + 1 by omega, Nat.add_mul, Nat.one_mul]
  have key : ∀ v, v = n - 1 - m ∨ (v = n - m ∧ w = 0) → ∀ x, x < v * params.blockPl → out'[x]? = out[x]? := by
    intro v hv x hx
    obtain ⟨j, hj, j1, j2⟩ := in_block hBpos hx
    refine blockOf_bytes (by omega) ?_ j1 j2
    rw [d2 j (by omega), b2 j (by omega)]
    congr 1
    refine unsealedBlock_below hH cfg hL hd (by omega) fun y hy => ?_
    have hle : (j + 1) * params.blockPl ≤ v * params.blockPl := Nat.mul_le_mul_right _ hj
    rw [a4 y]
    rcases hv with hv | ⟨hv, hw0⟩
    · rw [hv] at hle
      rw [if_pos (by omega)]
    · rw [hv] at hle
      by_cases a1 : y < (n - 1 - m) * params.blockPl
      · rw [if_pos a1]
      · rw [if_neg a1, if_neg (by omega), if_pos (by omega)]
  exact ⟨out', by rw [unsealFile_eq cfg]; exact d1, by omega, key _ (Or.inl rfl),
    fun hw0 => key _ (Or.inr ⟨rfl, hw0⟩), fun k _ hk => d2 k hk⟩

/-- A `seal` that is stopped after `k` blocks and `w` bytes of the next one: everything in front of the
place of the stop is as in the finished sealed file `st.file`, everything behind as before.  Undoing the
`k` blocks restores all of the file but those `w` bytes, which stay sealed. -/
theorem C96_seal_stopped (H : Bytes → Bytes) (hH : ∀ x, (H x).length = 32) (params : PosPara)
    (p n c : Nat) (cfg : Config params p n c) (hL : LongModeOk params n) (hS : ShortModeOk params n c)
    (file iv : Bytes) (hlen : n * params.blockPl ≤ file.length) (hu : UnitsBelow params p n c file)
    (k w : Nat) (hk : k < n) (hw : w ≤ params.blockPl) :
    ∃ st mid, sealFile H params file (p : Int) iv = .ok st ∧ sealStopped H params file (p : Int) iv k w = .ok mid ∧
      mid.length = file.length ∧
      (∀ x, mid[x]? = if x < k * params.blockPl + w then st.file[x]? else file[x]?) ∧
      (params.modeL = 0 → (∀ v ∈ st.log, v ≠ 0) →
        ∃ back, unsealFrom H params mid (p : Int) iv k = .ok back ∧ back.length = file.length ∧
          ∀ x, back[x]? =
            if k * params.blockPl ≤ x ∧ x < k * params.blockPl + w then st.file[x]? else file[x]?) := by
  have hBpos : 0 < params.blockPl := by
    rw [cfg.block_pl, cfg.unit_pl]; exact Nat.mul_pos cfg.c_pos (by omega)
  obtain ⟨tL, hl, hlong⟩ := longOf_is hH hL
  obtain ⟨tS, hs, hshort⟩ := shortOf_is hH cfg.c_pos hS
  have total : ∀ m ≤ n, ∃ s, sealPrefix H params file (p : Int) iv m = .ok s := by
    intro m hm
    obtain ⟨s, h1, -⟩ := sealLoop_exact hH cfg.keyOk cfg.layout (iv := iv) hshort hlong hlen
      (fun i hi => hu.blockOk cfg.layout hi) hm
    refine ⟨s, ?_⟩
    unfold sealPrefix
    rw [cfg.div, bind_ok, hl, bind_ok, hs, bind_ok]
    exact h1
  obtain ⟨s, s1⟩ := total k (by omega)
  obtain ⟨t, t1⟩ := total (k + 1) (by omega)
  obtain ⟨st, f1⟩ := total n (Nat.le_refl n)
  have f1' : sealFile H params file (p : Int) iv = .ok st := by rw [sealFile_eq cfg]; exact f1
  have h0 : SealInv H params p n c file 0 { file := file, ids := List.replicate n [], log := [] } :=
    sealInv_zero (fun i hi => hu.blockOk cfg.layout hi)
  have trace : ∀ m ≤ n, ∀ s, sealPrefix H params file (p : Int) iv m = .ok s → s.file.length = file.length := by
    intro m hm s h
    obtain ⟨iL, iS, -, hs', hrun⟩ := sealPrefix_eq cfg h
    exact (seal_trace hH cfg.keyOk cfg.layout (idxsSOf_shortOk hs') hlen h0 hm hrun).1.len
  have slen := trace k (by omega) s s1
  have tlen := trace (k + 1) (by omega) t t1
  obtain ⟨a1, a2, a3⟩ := C07_crash_point H hH params p n c cfg file iv hlen hu k (by omega) s st s1 f1'
  obtain ⟨b1, b2, -⟩ := C07_crash_point H hH params p n c cfg file iv hlen hu (k + 1) (by omega) t st t1 f1'
  have hst : s.file.length = t.file.length := by omega
  have hk1 : (k + 1) * params.blockPl = k * params.blockPl + params.blockPl := by rw [Nat.add_mul, Nat.one_mul]
  have hmid : ∀ x, (tornFile s.file t.file (k * params.blockPl + w))[x]? =
      if x < k * params.blockPl + w then st.file[x]? else file[x]? := by
    intro x
    rw [tornFile_getElem? hst]
    by_cases h : x < k * params.blockPl + w
    · rw [if_pos h, if_pos h, b1 x (by omega)]
    · rw [if_neg h, if_neg h, a2 x (by omega)]
  have hmlen : (tornFile s.file t.file (k * params.blockPl + w)).length = file.length := by
    rw [tornFile_length hst]; exact slen
  refine ⟨st, tornFile s.file t.file (k * params.blockPl + w), f1', ?_, hmlen, hmid, fun hmode hlog => ?_⟩
  · unfold sealStopped
    rw [s1, bind_ok, t1, bind_ok]
    rfl
  · have hd : describesUnseal (sealingOf H params p c iv (unsealLongOf H params n) (shortOf H params n c)) H params p n c iv :=
      ⟨rfl, rfl, rfl, rfl, rfl, rfl, rfl, rfl⟩
    have slog : ∀ v ∈ s.log, v ≠ 0 := by
      obtain ⟨iL, iS, hl', hs', hrun⟩ := sealPrefix_eq cfg f1
      obtain ⟨iL2, iS2, hl2, hs2, hrun2⟩ := sealPrefix_eq cfg s1
      rw [hl'] at hl2; rw [hs'] at hs2
      cases hl2; cases hs2
      obtain ⟨-, -, htr⟩ := seal_trace hH cfg.keyOk cfg.layout (idxsSOf_shortOk hs') hlen h0 (Nat.le_refl n) hrun
      cases k with
      | zero =>
        simp only [forUp_zero, Except.ok.injEq] at hrun2
        subst hrun2
        simp
      | succ k =>
        obtain ⟨q, q', -, -, -, q4, q5, -⟩ := htr k (by omega)
        rw [hrun2] at q5
        cases q5
        exact fun v hv => hlog v (q4.subset hv)
    have hback := a3 hmode slog
    obtain ⟨o, c1, c2, c3, c4⟩ := unsealFrom_exact hH cfg hL hS hd (file := s.file) (by omega) (k := k) (by omega)
    rw [hback] at c1
    cases c1
    obtain ⟨back, d1, d2, d3, d4⟩ := unsealFrom_exact hH cfg hL hS hd
      (file := tornFile s.file t.file (k * params.blockPl + w)) (by omega) (k := k) (by omega)
    refine ⟨back, d1, by omega, fun x => ?_⟩
    by_cases hx : x < k * params.blockPl
    · rw [if_neg (by omega)]
      obtain ⟨j, hj, j1, j2⟩ := in_block hBpos hx
      refine blockOf_bytes (by omega) ?_ j1 j2
      rw [d2 j hj, c2 j hj]
      congr 1
      refine unsealedBlock_below hH cfg hL hd (by omega) fun y hy => ?_
      have hle : (j + 1) * params.blockPl ≤ k * params.blockPl := Nat.mul_le_mul_right _ hj
      rw [hmid y, if_pos (by omega), a1 y (by omega)]
    · rw [d4 x (by omega), hmid x]
      by_cases h : x < k * params.blockPl + w
      · rw [if_pos h, if_pos (by omega)]
      · rw [if_neg h, if_neg (by omega)]

/-- The padding byte of every unit. -/
theorem padded_zero {params : PosPara} {p n c : Nat} (cfg : Config params p n c) {origin padded : Bytes}
    (hlen : origin.length = params.dataL) (hpad : copyAndPad origin params.dataL params.unitL = .ok padded)
    {j : Nat} (hj : j < n * c) : padded[j * params.unitPl + params.unitL]? = some 0 := by
  have hd : params.dataL = (n * c) * params.unitL := by rw [cfg.data, cfg.block, Nat.mul_assoc]
  obtain ⟨pd, h1, h2, h3, -⟩ := C15_pad_compress origin params.unitL (n * c) cfg.unit_pos (by rw [hlen, hd])
  rw [← hd, hpad] at h1
  cases h1
  have := congrArg (fun l => l[params.unitL]?) (h3 j hj)
  simp only [readFile_getElem?] at this
  rw [if_pos (by omega), List.getElem?_append_right (by rw [readFile_length]), readFile_length, Nat.sub_self,
    ← cfg.unit_pl] at this
  have hx : j * params.unitPl + params.unitL < padded.length := by
    rw [h2, ← cfg.unit_pl]
    have : (j + 1) * params.unitPl ≤ (n * c) * params.unitPl := Nat.mul_le_mul_right _ hj
    rw [Nat.add_mul, Nat.one_mul] at this
    have := cfg.unit_pl
    omega
  rw [List.getElem?_eq_getElem hx] at this ⊢
  simpa using this

/-- A number whose last of `l + 1` bytes is zero is below `256 ^ l`. -/
theorem leNat_last_zero {b : Bytes} {l : Nat} (hl : b.length = l + 1) (h : b[l]? = some 0) : leNat b < 256 ^ l := by
  have e : b = b.take l ++ [0] := by
    apply List.ext_getElem?
    intro i
    rcases Nat.lt_trichotomy i l with hi | hi | hi
    · rw [List.getElem?_append_left (by simp; omega), List.getElem?_take_of_lt hi]
    · subst hi
      rw [h, List.getElem?_append_right (by simp)]
      simp [hl]
    · rw [List.getElem?_eq_none (by omega), List.getElem?_eq_none (by simp; omega)]
  rw [e, show ([0] : Bytes) = zeros 1 from rfl, leNat_append_zeros]
  have := leNat_lt (b.take l)
  rwa [List.length_take, Nat.min_eq_left (by omega)] at this

/-- Restarting a stopped `seal` of a padded file: it seals the file it finds, half sealed as it is.
Unsealing then does not lead back to the padded original but to the file found at the restart. -/
theorem C96_seal_again (H : Bytes → Bytes) (hH : ∀ x, (H x).length = 32) (params : PosPara)
    (p n c : Nat) (cfg : Config params p n c) (hmode : params.modeL = 0) (hn : LongCountOk n params.cntL) (hS : ShortModeOk params n c)
    (origin padded iv : Bytes) (hlen : origin.length = params.dataL)
    (hpad : copyAndPad origin params.dataL params.unitL = .ok padded)
    (k w : Nat) (hk : k < n) (hw : w ≤ params.blockPl) (mid : Bytes)
    (hmid : sealStopped H params padded (p : Int) iv k w = .ok mid) :
    ∃ st, sealFile H params mid (p : Int) iv = .ok st ∧
      ((∀ v ∈ st.log, v ≠ 0) → unsealFile H params st.file (p : Int) iv = .ok mid) := by
  have hL : LongModeOk params n := ⟨fun _ => hn, fun h => by omega, fun h => by omega⟩
  obtain ⟨pd, g1, g2, g3, g4⟩ := padded_unitsBelow cfg hlen
  rw [hpad] at g1
  cases g1
  obtain ⟨st, md, a1, a2, a3, a4, -⟩ := C96_seal_stopped H hH params p n c cfg hL hS padded iv (by omega) g3 k w hk hw
  rw [hmid] at a2
  cases a2
  have h0 : SealInv H params p n c padded 0 { file := padded, ids := List.replicate n [], log := [] } :=
    sealInv_zero (fun i hi => g3.blockOk cfg.layout hi)
  have hsu : UnitsBelow params p n c st.file := by
    rw [sealFile_eq cfg] at a1
    obtain ⟨iL, iS, -, hs', hrun⟩ := sealPrefix_eq cfg a1
    exact BlockOk.unitsBelow cfg.layout cfg.c_pos
      (seal_trace hH cfg.keyOk cfg.layout (idxsSOf_shortOk hs') (by omega) h0 (Nat.le_refl n) hrun).1.units
  have hum : UnitsBelow params p n c mid := by
    intro j hj
    by_cases h : (j + 1) * params.unitPl ≤ k * params.blockPl + w
    · have e : readFile mid (j * params.unitPl) params.unitPl = readFile st.file (j * params.unitPl) params.unitPl := by
        refine readFile_congr fun x h1 h2 => ?_
        rw [a4 x, if_pos]
        rw [Nat.add_mul, Nat.one_mul] at h
        omega
      rw [e]
      exact hsu j hj
    · have hz : (readFile mid (j * params.unitPl) params.unitPl)[params.unitL]? = some 0 := by
        have hpl := cfg.unit_pl
        rw [readFile_getElem?, if_pos (by omega), a4, if_neg (by rw [Nat.add_mul, Nat.one_mul] at h; omega)]
        rw [padded_zero cfg hlen hpad hj]
        rfl
      have hl : (readFile mid (j * params.unitPl) params.unitPl).length = params.unitL + 1 := by
        rw [readFile_length, cfg.unit_pl]
      have := leNat_last_zero hl hz
      have := cfg.above_units
      omega
  obtain ⟨st2, q1, -⟩ := C64_seal_exact H hH params p n c cfg hL hS mid iv (by omega) hum
    (sealingOf H params p c iv (longOf H params n) (shortOf H params n c)) ⟨rfl, rfl, rfl, rfl, rfl, rfl, rfl, rfl, rfl⟩
  refine ⟨st2, q1, fun hlog => ?_⟩
  rw [unsealFile_eq cfg]
  rw [sealFile_eq cfg] at q1
  exact unsealFrom_sealPrefix hH cfg (Or.inl hmode) (by omega) hum (Nat.le_refl n) q1 hlog

/-- The number of blocks only decides how many bytes make up one hash-chosen index. -/
theorem unsealBlock_num {H : Bytes → Bytes} {params : PosPara} (hmode : params.modeL = 0) {a b : Nat}
    (hab : stepOf a = stepOf b) (d : Nat) (key : Int) (iv : Bytes) (iL iS : List (List Nat)) (idx : Nat) (f : Bytes) :
    unsealBlock H { params with dataL := d } key iv a iL iS idx f = unsealBlock H params key iv b iL iS idx f := by
  have e : ∀ x i cnt, longModeRandom H a x i cnt = longModeRandom H b x i cnt := by
    intro x i cnt
    unfold longModeRandom
    rw [hab]
  have e2 : ∀ x i, unsealDependBlocks H { params with dataL := d } a iL f x i = unsealDependBlocks H params b iL f x i := by
    intro x i
    unfold unsealDependBlocks
    simp only [hmode, if_true, e]
  unfold unsealBlock
  simp only [e2]
  rfl

/-- With the public interface: `unseal` called with the length of the first `k` blocks as data length
undoes exactly `k` blocks (hash-chosen dependencies; at most 256 blocks in the whole file, or more than
256 in both). -/
theorem C96_unseal_call (H : Bytes → Bytes) (params : PosPara) (n k : Nat) (hB : 0 < params.blockL)
    (hdata : params.dataL = n * params.blockL) (hL : params.modeL = 0) (hS : params.modeS = 0)
    (hk : k ≤ n) (hn : n ≤ 256 ∨ (256 < k ∧ n ≤ 65536)) (file iv : Bytes) (key : Int) :
    unsealFile H { params with dataL := k * params.blockL } file key iv = unsealFrom H params file key iv k := by
  have hstep : stepOf k = stepOf n := by
    unfold stepOf
    rcases hn with h | ⟨h1, h2⟩
    · rw [if_pos (by omega : k ≤ 256), if_pos (by omega : n ≤ 256)]
    · rw [if_neg (by omega : ¬ k ≤ 256), if_neg (by omega : ¬ n ≤ 256), if_pos (by omega : k ≤ 65536),
        if_pos (by omega : n ≤ 65536)]
  have iL : ∀ (q : PosPara) m, q.modeL = 0 → idxsLOf q m = .ok [] := by
    intro q m hq
    unfold idxsLOf
    rw [if_neg (by simp [hq])]
    rfl
  have iS : ∀ (q : PosPara) m, q.modeS = 0 → idxsSOf q m = .ok [] := by
    intro q m hq
    unfold idxsSOf
    rw [if_neg (by simp [hq])]
    rfl
  unfold unsealFile
  simp only
  rw [div!_of_pos hB, bind_ok, Nat.mul_div_cancel _ hB]
  unfold unsealFrom
  simp only
  rw [div!_of_pos hB, bind_ok, Nat.mul_div_cancel _ hB, div!_of_pos hB, bind_ok, hdata, Nat.mul_div_cancel _ hB,
    iL { params with dataL := k * params.blockL } k hL, bind_ok, iS { params with dataL := k * params.blockL } k hS,
    bind_ok, iL params n hL, bind_ok, iS params n hS, bind_ok]
  refine forUp_congr fun i hi s => ?_
  rw [sub!_of_le (by omega), bind_ok, sub!_of_le (by omega), bind_ok,
    unsealBlock_num hL hstep]
  rw [bind_ok, sub!_of_le (by omega), bind_ok]

/-- The shipped parameter sets: a `seal` that is stopped between two blocks is undone by one call of
`unseal` with the data length of the blocks that were done. -/
theorem C96_shipped_undo (H : Bytes → Bytes) (hH : ∀ x, (H x).length = 32) (l : Nat) (origin padded iv : Bytes)
    (hlen : origin.length = (genPosdata l).dataL)
    (hpad : copyAndPad origin (genPosdata l).dataL (genPosdata l).unitL = .ok padded)
    (hz : NoZeroInput H (genPosdata l) padded P_512 iv) (k : Nat) (hk : k < 256) :
    ∃ mid, sealStopped H (genPosdata l) padded P_512 iv k 0 = .ok mid ∧
      unsealFile H { genPosdata l with dataL := k * (genPosdata l).blockL } mid P_512 iv = .ok padded := by
  obtain ⟨c, hc, cfg, hL, hS⟩ := genPosdata_config l _ prime_P_512 (by norm_num) (by norm_num) (by norm_num)
  obtain ⟨pd, g1, g2, g3, g4⟩ := padded_unitsBelow cfg hlen
  rw [hpad] at g1
  cases g1
  obtain ⟨mL, mS⟩ := hashModes_ok (params := genPosdata l) (n := 256) (c := c) hL hS (by omega) (by omega)
  obtain ⟨st, mid, a1, a2, a3, a4, a5⟩ := C96_seal_stopped H hH _ _ 256 c cfg mL mS padded iv (by omega) g3 k 0 hk
    (by omega)
  obtain ⟨back, b1, b2, b3⟩ := a5 hL (hz st a1)
  have e : back = padded := by
    apply List.ext_getElem?
    intro x
    rw [b3 x, if_neg (by omega)]
  subst e
  have hB : 0 < (genPosdata l).blockL := by rw [cfg.block]; exact Nat.mul_pos cfg.c_pos cfg.unit_pos
  refine ⟨mid, a2, ?_⟩
  rw [C96_unseal_call H _ 256 k hB cfg.data hL hS (by omega) (Or.inl (by omega))]
  exact b1

set_option maxRecDepth 100000 in
/-- Calling the functions again is not harmless.  Three blocks of one unit.  An `unseal` stopped after
one block, and called again: the block that was done is unsealed a second time and lost, the others come
out right; going on with the other two blocks gives back the file.  A `seal` stopped after one block and
20 bytes, and called again: unsealing leads back to the half-sealed file; undoing one block restores all
but 20 bytes. -/
theorem C96_calling_again :
    (match copyAndPad (toyFile 189) 189 63 with
    | .ok padded => (match sealFile toyHash (toyParams 3 1 0 0 1 1 2) padded P_512 [1, 2, 3] with
      | .ok st => (match unsealStopped toyHash (toyParams 3 1 0 0 1 1 2) st.file P_512 [1, 2, 3] 1 0,
          sealStopped toyHash (toyParams 3 1 0 0 1 1 2) padded P_512 [1, 2, 3] 1 20 with
        | .ok mid, .ok half => (match unsealFile toyHash (toyParams 3 1 0 0 1 1 2) mid P_512 [1, 2, 3],
            unsealFrom toyHash (toyParams 3 1 0 0 1 1 2) mid P_512 [1, 2, 3] 2,
            sealFile toyHash (toyParams 3 1 0 0 1 1 2) half P_512 [1, 2, 3],
            unsealFrom toyHash (toyParams 3 1 0 0 1 1 2) half P_512 [1, 2, 3] 1 with
          | .ok again, .ok resumed, .ok st2, .ok undone => (match
              unsealFile toyHash (toyParams 3 1 0 0 1 1 2) st2.file P_512 [1, 2, 3] with
            | .ok back => decide (again ≠ padded ∧ again.take 128 = padded.take 128 ∧ resumed = padded ∧
                (∀ v ∈ st.log, v ≠ 0) ∧ (∀ v ∈ st2.log, v ≠ 0) ∧ back = half ∧ half ≠ padded ∧ half ≠ st.file ∧
                undone ≠ padded ∧ undone.take 64 = padded.take 64 ∧ undone.drop 84 = padded.drop 84)
            | _ => false)
          | _, _, _, _ => false)
        | _, _ => false)
      | _ => false)
    | _ => false) = true := by
  decide +kernel

end PoS
