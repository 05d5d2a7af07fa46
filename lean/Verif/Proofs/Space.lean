import Verif.Model.Space
import Verif.Proofs.Convert
import Verif.Proofs.Common

/-
Lemmas about the bit-addressed file of the space crate.
-/

namespace PoS

theorem readInto_length (file : Bytes) (pos : Nat) (buf : Bytes) : (readInto file pos buf).length = buf.length := by
  unfold readInto
  simp only [List.length_append, List.length_take, List.length_drop]
  omega

/-- Reading one byte inside the file. -/
theorem readInto_one {file : Bytes} {pos : Nat} {buf : Bytes} (hb : buf.length = 1) (h : pos < file.length) :
    readInto file pos buf = [file[pos]] := by
  obtain ⟨c, rfl⟩ := List.length_eq_one_iff.mp hb
  unfold readInto
  rw [List.drop_eq_getElem_cons h]
  rfl

theorem bytesToBits_one (b : UInt8) : bytesToBits [b] = bitsOf 8 b.toNat := by
  rw [bytesToBits_cons]; simp

/-- Bits of a file in which one byte was overwritten. -/
theorem writeAt_bits {file : Bytes} {pos : Nat} (h : pos < file.length) (b : UInt8) (i : Nat) :
    (bytesToBits (writeAt file pos [b]))[i]? =
      if i / 8 = pos then (bitsOf 8 b.toNat)[i % 8]? else (bytesToBits file)[i]? := by
  rw [bytesToBits_getElem?, bytesToBits_getElem?, writeAt_getElem? _ _ _ _ (by omega)]
  by_cases hi : i / 8 = pos
  · rw [if_pos (by simp; omega), if_pos hi, hi]
    simp
  · rw [if_neg (by simp; omega), if_neg hi]

/-- Invariant of the writing loop after the bits `p` were written from bit position `start`. -/
structure MarkInv (file0 : Bytes) (start : Nat) (p : List Bool) (s : MarkState) : Prop where
  len : s.file.length = file0.length
  buf : s.buf.length = 1
  bits : s.bufBits.length = 8
  j : s.j < 8
  pos : 8 * s.byteIdx + s.j = start + p.length
  view : ∀ i < 8 * file0.length,
    (if i / 8 = s.byteIdx then s.bufBits[i % 8]? else (bytesToBits s.file)[i]?) =
      if start ≤ i ∧ i < start + p.length then p[i - start]? else (bytesToBits file0)[i]?
  raw : ∀ i, 8 * s.byteIdx ≤ i → (bytesToBits s.file)[i]? = (bytesToBits file0)[i]?

theorem markStep_inv {file0 : Bytes} {start : Nat} {p : List Bool} {s : MarkState}
    (h : MarkInv file0 start p s) (b : Bool) (hin : start + p.length < 8 * file0.length) :
    ∃ s', markStep b s = .ok s' ∧ MarkInv file0 start (p ++ [b]) s' := by
  have hj := h.j
  have hpos := h.pos
  have hput : put! s.bufBits s.j b = .ok (s.bufBits.set s.j b) := if_pos (by rw [h.bits]; exact hj)
  -- the view after setting the bit
  have hview : ∀ i < 8 * file0.length,
      (if i / 8 = s.byteIdx then (s.bufBits.set s.j b)[i % 8]? else (bytesToBits s.file)[i]?) =
        if start ≤ i ∧ i < start + (p ++ [b]).length then (p ++ [b])[i - start]? else (bytesToBits file0)[i]? := by
    intro i hi
    have hv := h.view i hi
    rw [List.length_append, List.length_singleton]
    by_cases hcur : i = start + p.length
    · rw [if_pos (by omega), if_pos (by omega), show i % 8 = s.j by omega, List.getElem?_set_self (by rw [h.bits]; omega),
        show i - start = p.length by omega]
      simp
    · have e1 : (if i / 8 = s.byteIdx then (s.bufBits.set s.j b)[i % 8]? else (bytesToBits s.file)[i]?) =
          (if i / 8 = s.byteIdx then s.bufBits[i % 8]? else (bytesToBits s.file)[i]?) := by
        by_cases hb : i / 8 = s.byteIdx
        · rw [if_pos hb, if_pos hb, List.getElem?_set_ne (by omega)]
        · rw [if_neg hb, if_neg hb]
      rw [e1, hv]
      by_cases hr : start ≤ i ∧ i < start + p.length
      · rw [if_pos hr, if_pos (by omega), List.getElem?_append_left (by omega)]
      · rw [if_neg hr, if_neg (by omega)]
  unfold markStep
  rw [hput, bind_ok]
  by_cases h8 : s.j + 1 = 8
  · simp only [h8, if_true]
    obtain ⟨w, w1, w2, w3⟩ := bitsToBytes_spec (s.bufBits.set s.j b)
    have hw : w.length = 1 := by rw [w2]; simp [h.bits]
    obtain ⟨c, rfl⟩ := List.length_eq_one_iff.mp hw
    have hc : bitsOf 8 c.toNat = s.bufBits.set s.j b := by
      rw [bytesToBits_one] at w3
      rw [w3]; simp [h.bits]
    rw [w1, bind_ok]
    have hin' : s.byteIdx < s.file.length := by rw [h.len]; omega
    have hwl : (writeAt s.file s.byteIdx [c]).length = s.file.length := writeAt_length _ _ _ (by simp; omega)
    refine ⟨_, rfl, ⟨?_, ?_, ?_, by norm_num, ?_, ?_, ?_⟩⟩
    · simp only; rw [hwl, h.len]
    · simp only; rw [readInto_length]; rfl
    · simp only; rw [bytesToBits_length, readInto_length]; rfl
    · simp only [List.length_append, List.length_singleton]; omega
    · intro i hi
      rw [← hview i hi]
      simp only
      by_cases hn : i / 8 = s.byteIdx + 1
      · have hlt : s.byteIdx + 1 < (writeAt s.file s.byteIdx [c]).length := by rw [hwl, h.len]; omega
        rw [if_pos hn, readInto_one rfl hlt, bytesToBits_one, if_neg (by omega)]
        have e := bytesToBits_getElem? (writeAt s.file s.byteIdx [c]) i
        rw [hn, List.getElem?_eq_getElem hlt, Option.bind_some] at e
        rw [← e, writeAt_bits hin', if_neg (by omega)]
      · rw [if_neg hn, writeAt_bits hin', hc]
    · intro i hi
      simp only at hi ⊢
      rw [writeAt_bits hin', if_neg (by omega)]
      exact h.raw i (by omega)
  · simp only [h8, if_false]
    refine ⟨_, rfl, ⟨h.len, h.buf, by simp [h.bits], ?_, ?_, ?_, h.raw⟩⟩
    · simp only; omega
    · simp only [List.length_append, List.length_singleton]; omega
    · exact hview

/-- Writing bits inside the file changes exactly those bits. -/
theorem markBits_spec {file : Bytes} {start : Nat} {xs : List Bool} (hin : start + xs.length ≤ 8 * file.length)
    (hne : xs ≠ []) :
    ∃ file', markBits file start xs = .ok file' ∧ file'.length = file.length ∧
      ∀ i, (bytesToBits file')[i]? =
        if start ≤ i ∧ i < start + xs.length then xs[i - start]? else (bytesToBits file)[i]? := by
  have hpos : 0 < xs.length := List.length_pos_of_ne_nil hne
  have hlt : start / 8 < file.length := by omega
  have key : ∀ (ys p : List Bool) (s : MarkState), MarkInv file start p s →
      start + p.length + ys.length ≤ 8 * file.length →
      ∃ s', forEach ys markStep s = .ok s' ∧ MarkInv file start (p ++ ys) s' := by
    intro ys
    induction ys with
    | nil => intro p s h _; exact ⟨s, rfl, by simpa using h⟩
    | cons b ys ih =>
      intro p s h hl
      simp only [List.length_cons] at hl
      obtain ⟨s1, e1, h1⟩ := markStep_inv h b (by omega)
      obtain ⟨s2, e2, h2⟩ := ih _ _ h1 (by simp; omega)
      refine ⟨s2, ?_, by simpa using h2⟩
      rw [forEach_cons, e1]
      simp only [bind_ok]
      exact e2
  have h0 : MarkInv file start [] ⟨file, start / 8, readInto file (start / 8) [0],
      bytesToBits (readInto file (start / 8) [0]), start % 8⟩ := by
    refine ⟨rfl, by rw [readInto_length]; rfl, by rw [bytesToBits_length, readInto_length]; rfl, by simp only; omega,
      by simp; omega, ?_, fun _ _ => rfl⟩
    intro i hi
    have hnot : ¬ (start ≤ i ∧ i < start + ([] : List Bool).length) := by simp
    rw [if_neg hnot]
    simp only
    by_cases hb : i / 8 = start / 8
    · rw [if_pos hb, readInto_one rfl hlt, bytesToBits_one]
      have e := bytesToBits_getElem? file i
      rw [hb, List.getElem?_eq_getElem hlt, Option.bind_some] at e
      exact e.symm
    · rw [if_neg hb]
  obtain ⟨s, e, h⟩ := key xs [] _ h0 (by simpa using hin)
  rw [List.nil_append] at h
  have hlen := h.len
  have hjj := h.j
  have hpp := h.pos
  -- positions beyond the file
  have fin : ∀ file' : Bytes, file'.length = file.length →
      (∀ i < 8 * file.length, (bytesToBits file')[i]? =
        if i / 8 = s.byteIdx then s.bufBits[i % 8]? else (bytesToBits s.file)[i]?) →
      ∀ i, (bytesToBits file')[i]? =
        if start ≤ i ∧ i < start + xs.length then xs[i - start]? else (bytesToBits file)[i]? := by
    intro file' hl hv i
    by_cases hi : i < 8 * file.length
    · rw [hv i hi, h.view i hi]
    · rw [List.getElem?_eq_none (by simp; omega), if_neg (by omega), List.getElem?_eq_none (by simp; omega)]
  unfold markBits
  simp only []
  rw [e, bind_ok]
  by_cases hj : s.j ≠ 0
  · rw [if_pos hj]
    obtain ⟨w, w1, w2, w3⟩ := bitsToBytes_spec s.bufBits
    have hw : w.length = 1 := by rw [w2]; simp [h.bits]
    obtain ⟨c, rfl⟩ := List.length_eq_one_iff.mp hw
    have hc : bitsOf 8 c.toNat = s.bufBits := by
      rw [bytesToBits_one] at w3
      rw [w3]; simp [h.bits]
    rw [w1, bind_ok]
    have hin' : s.byteIdx < s.file.length := by rw [h.len]; omega
    have hwl : (writeAt s.file s.byteIdx [c]).length = s.file.length := writeAt_length _ _ _ (by simp; omega)
    refine ⟨_, rfl, by rw [hwl, hlen], fin _ (by rw [hwl, hlen]) ?_⟩
    intro i _
    rw [writeAt_bits hin', hc]
  · have hj : s.j = 0 := by omega
    rw [if_neg (by omega)]
    refine ⟨_, rfl, hlen, ?_⟩
    intro i
    by_cases hi : i < 8 * file.length
    · by_cases hb : i / 8 = s.byteIdx
      · -- this byte was read but not modified
        rw [if_neg (by omega)]
        exact h.raw i (by omega)
      · have hv := h.view i hi
        rw [if_neg hb] at hv
        exact hv
    · rw [List.getElem?_eq_none (by simp; omega), if_neg (by omega), List.getElem?_eq_none (by simp; omega)]

/-- Invariant of the reading loop after `k` bits. -/
structure ReadInv (file : Bytes) (start len k : Nat) (s : ReadState) : Prop where
  buf : s.buf.length = 1
  bits : s.bufBits.length = 8
  kk : s.k < 8
  pos : 8 * s.byteIdx + s.k = start + k
  cur : ∀ i, i / 8 = s.byteIdx → i < 8 * file.length → s.bufBits[i % 8]? = (bytesToBits file)[i]?
  xlen : s.xBits.length = len
  got : ∀ j < k, s.xBits[j]? = (bytesToBits file)[start + j]?

theorem readCur {file : Bytes} {b : Nat} {buf : Bytes} (hb : buf.length = 1) (i : Nat) (hi : i / 8 = b)
    (h : i < 8 * file.length) : (bytesToBits (readInto file b buf))[i % 8]? = (bytesToBits file)[i]? := by
  have hlt : b < file.length := by omega
  rw [readInto_one hb hlt, bytesToBits_one]
  have e := bytesToBits_getElem? file i
  rw [hi, List.getElem?_eq_getElem hlt, Option.bind_some] at e
  exact e.symm

/-- Reading a slot that lies inside the file returns its bits. -/
theorem readSlot_spec {file : Bytes} {n yn : Nat} (hin : (n + 1) * yn + (n + 1) ≤ 8 * file.length) :
    ∃ xs, readSlot file n yn = .ok xs ∧ xs = ((bytesToBits file).drop ((n + 1) * yn)).take (n + 1) ∧
      xs.length = n + 1 := by
  set start := (n + 1) * yn with hstart
  have h0 : ReadInv file start (n + 1) 0 ⟨start / 8, readInto file (start / 8) [0],
      bytesToBits (readInto file (start / 8) [0]), start % 8, List.replicate (n + 1) false⟩ :=
    ⟨by rw [readInto_length]; rfl, by rw [bytesToBits_length, readInto_length]; rfl, by simp only; omega,
      by simp only; omega, fun i hi h => readCur rfl i hi h, by simp, by intro j hj; omega⟩
  obtain ⟨s, e, h⟩ := forUp_total (n := n + 1) (f := readStep file)
    (ReadInv file start (n + 1) : Nat → ReadState → Prop) h0 (by
      intro k hk s h
      have hkk := h.kk
      have hpos := h.pos
      have hcur := h.cur (start + k) (by omega) (by omega)
      rw [show (start + k) % 8 = s.k by omega] at hcur
      have hlt : s.k < s.bufBits.length := by rw [h.bits]; exact hkk
      have hput : put! s.xBits k s.bufBits[s.k] = .ok (s.xBits.set k s.bufBits[s.k]) :=
        if_pos (by rw [h.xlen]; exact hk)
      have hgot : ∀ j < k + 1, (s.xBits.set k s.bufBits[s.k])[j]? = (bytesToBits file)[start + j]? := by
        intro j hj
        by_cases hjk : j = k
        · subst hjk
          rw [List.getElem?_set_self (by rw [h.xlen]; exact hk), ← hcur, List.getElem?_eq_getElem hlt]
        · rw [List.getElem?_set_ne (by omega)]
          exact h.got j (by omega)
      unfold readStep
      rw [at!_of_lt hlt, bind_ok, hput, bind_ok]
      by_cases h8 : s.k + 1 = 8
      · simp only [h8, if_true]
        refine ⟨_, rfl, ⟨by simp only; rw [readInto_length, h.buf], by simp only; rw [bytesToBits_length,
          readInto_length, h.buf], by norm_num, by simp only; omega, fun i hi hl => readCur h.buf i hi hl,
          by simp [h.xlen], hgot⟩⟩
      · simp only [h8, if_false]
        exact ⟨_, rfl, ⟨h.buf, h.bits, by simp only; omega, by simp only; omega, h.cur, by simp [h.xlen], hgot⟩⟩)
  refine ⟨s.xBits, ?_, ?_, h.xlen⟩
  · unfold readSlot
    simp only []
    rw [← hstart, e, bind_ok]
    rfl
  · apply List.ext_getElem?
    intro j
    by_cases hj : j < n + 1
    · rw [h.got j hj, List.getElem?_take_of_lt hj, List.getElem?_drop]
    · rw [List.getElem?_eq_none (by rw [h.xlen]; omega), List.getElem?_eq_none (by simp; omega)]

end PoS
