import Verif.Model.SpaceStop
import Verif.Spec.SpaceTable
import Verif.Properties.SpaceTable

/-
`mark_space` on any file, with all contents on the way.
-/

namespace PoS

set_option linter.unusedSectionVars false

variable {q : Nat}

theorem fileBit {f : Bytes} {i : Nat} (h : i < 8 * f.length) :
    (bytesToBits f)[i]? = some ((leNat f).testBit i) := by
  rw [bits_getElem? _ _ (by simpa using h), bitsVal_bytesToBits]

theorem fileBit_out {f : Bytes} {i : Nat} (h : 8 * f.length ≤ i) : (leNat f).testBit i = false := by
  rw [← bitsVal_bytesToBits]
  apply Nat.testBit_lt_two_pow
  refine lt_of_lt_of_le (bitsVal_lt _) (Nat.pow_le_pow_right (by norm_num) (by simpa using h))

theorem file_ext {f g : Bytes} (hl : f.length = g.length) (h : ∀ i, (leNat f).testBit i = (leNat g).testBit i) :
    f = g := by
  apply bytesToBits_inj
  apply List.ext_getElem?
  intro i
  by_cases hi : i < 8 * f.length
  · rw [fileBit hi, fileBit (hl ▸ hi), h i]
  · rw [List.getElem?_eq_none (by simp; omega), List.getElem?_eq_none (by simp; omega)]

/-- What the file holds in the middle of the writing loop. -/
theorem MarkInv.mid {file0 : Bytes} {start : Nat} {p : List Bool} {s : MarkState} (h : MarkInv file0 start p s)
    (hin : start + p.length ≤ 8 * file0.length) (i : Nat) :
    (bytesToBits s.file)[i]? =
      if start ≤ i ∧ i < start + p.length ∧ i < 8 * s.byteIdx then p[i - start]? else (bytesToBits file0)[i]? := by
  by_cases hb : 8 * s.byteIdx ≤ i
  · rw [h.raw i hb, if_neg (by omega)]
  by_cases hi : i < 8 * file0.length
  · have hv := h.view i hi
    rw [if_neg (by omega)] at hv
    rw [hv]
    by_cases hr : start ≤ i ∧ i < start + p.length
    · rw [if_pos hr, if_pos (by omega)]
    · rw [if_neg hr, if_neg (by omega)]
  · have hl := h.len
    rw [List.getElem?_eq_none (by simp; omega), if_neg (by omega), List.getElem?_eq_none (by simp; omega)]

/-- A content of the file while the bits `xs` are written at `start`: those in the first `b` bytes of
the file are. -/
def Partly (file : Bytes) (start : Nat) (xs : List Bool) (b : Nat) (g : Bytes) : Prop :=
  g.length = file.length ∧ ∀ i, (bytesToBits g)[i]? =
    if start ≤ i ∧ i < start + xs.length ∧ i < 8 * b then xs[i - start]? else (bytesToBits file)[i]?

theorem partly_prefix {file g : Bytes} {start b : Nat} {p ys : List Bool} (h : Partly file start p b g)
    (hb : 8 * b ≤ start + p.length) : Partly file start (p ++ ys) b g := by
  obtain ⟨hl, h⟩ := h
  refine ⟨hl, fun i => ?_⟩
  rw [h i]
  by_cases hr : start ≤ i ∧ i < start + p.length ∧ i < 8 * b
  · rw [if_pos hr, if_pos (by simp; omega), List.getElem?_append_left (by omega)]
  · rw [if_neg hr, if_neg (by simp; omega)]

theorem markStep_file {b : Bool} {s s' : MarkState} (h : markStep b s = .ok s') :
    (s.j + 1 ≠ 8 → s'.byteIdx = s.byteIdx ∧ s'.j = s.j + 1) ∧ (s.j + 1 = 8 → s'.byteIdx = s.byteIdx + 1) := by
  unfold markStep at h
  obtain ⟨bb, e1, h⟩ := bind_eq_ok.mp h
  simp only [] at h
  by_cases h8 : s.j + 1 = 8
  · rw [if_pos h8] at h
    obtain ⟨buf, e2, h⟩ := bind_eq_ok.mp h
    refine ⟨fun h' => absurd h8 h', fun _ => ?_⟩
    injection h with h
    rw [← h]
  · rw [if_neg h8] at h
    refine ⟨fun _ => ?_, fun h' => absurd h' h8⟩
    injection h with h
    rw [← h]
    exact ⟨rfl, rfl⟩

theorem markBitsSeen_spec {file : Bytes} {start : Nat} {xs : List Bool} (hin : start + xs.length ≤ 8 * file.length)
    (hne : xs ≠ []) :
    ∃ file' seen, markBitsSeen file start xs = .ok (file', seen) ∧ markBits file start xs = .ok file' ∧ file' ∈ seen ∧
      (∀ g ∈ seen, ∃ b, Partly file start xs b g) ∧ ∀ b, ∃ g ∈ file :: seen, Partly file start xs b g := by
  have hpos : 0 < xs.length := List.length_pos_of_ne_nil hne
  have hlt : start / 8 < file.length := by omega
  have key : ∀ (ys p : List Bool) (s : MarkState) (seen : List Bytes), MarkInv file start p s →
      start + p.length + ys.length ≤ 8 * file.length →
      (∀ g ∈ seen, ∃ b, 8 * b ≤ start + p.length ∧ Partly file start p b g) →
      (∀ b ≤ s.byteIdx, ∃ g ∈ file :: seen, Partly file start p b g) →
      (p ≠ [] → s.j = 0 → s.file ∈ seen) →
      ∃ s' seen', forEach ys markStepSeen (s, seen) = .ok (s', seen') ∧ forEach ys markStep s = .ok s' ∧
        MarkInv file start (p ++ ys) s' ∧
        (∀ g ∈ seen', ∃ b, 8 * b ≤ start + (p ++ ys).length ∧ Partly file start (p ++ ys) b g) ∧
        (∀ b ≤ s'.byteIdx, ∃ g ∈ file :: seen', Partly file start (p ++ ys) b g) ∧
        (p ++ ys ≠ [] → s'.j = 0 → s'.file ∈ seen') := by
    intro ys
    induction ys with
    | nil =>
      intro p s seen h _ hg hc hm
      exact ⟨s, seen, rfl, rfl, by simpa using h, by simpa using hg, by simpa using hc, by simpa using hm⟩
    | cons b ys ih =>
      intro p s seen h hl hg hc hm
      simp only [List.length_cons] at hl
      obtain ⟨s1, e1, h1⟩ := markStep_inv h b (by omega)
      obtain ⟨k1, k2⟩ := markStep_file e1
      have hp := h.pos
      have hp1 := h1.pos
      have hmid : Partly file start (p ++ [b]) s1.byteIdx s1.file := ⟨h1.len, h1.mid (by simp; omega)⟩
      have hold : ∀ b' ≤ s.byteIdx, ∃ g ∈ file :: seen, Partly file start (p ++ [b]) b' g := by
        intro b' hb'
        obtain ⟨g, m1, m2⟩ := hc b' hb'
        exact ⟨g, m1, partly_prefix m2 (by omega)⟩
      have hold' : ∀ g ∈ seen, ∃ b', 8 * b' ≤ start + (p ++ [b]).length ∧ Partly file start (p ++ [b]) b' g := by
        intro g hgm
        obtain ⟨b', m1, m2⟩ := hg g hgm
        exact ⟨b', by simp; omega, partly_prefix m2 m1⟩
      obtain ⟨seen1, e1', hg1, hc1, hm1⟩ : ∃ seen1, markStepSeen b (s, seen) = .ok (s1, seen1) ∧
          (∀ g ∈ seen1, ∃ b', 8 * b' ≤ start + (p ++ [b]).length ∧ Partly file start (p ++ [b]) b' g) ∧
          (∀ b' ≤ s1.byteIdx, ∃ g ∈ file :: seen1, Partly file start (p ++ [b]) b' g) ∧
          (s1.j = 0 → s1.file ∈ seen1) := by
        unfold markStepSeen
        rw [e1, bind_ok]
        simp only []
        by_cases h8 : s.j + 1 = 8
        · rw [if_pos h8]
          refine ⟨_, rfl, ?_, ?_, fun _ => by simp⟩
          · intro g hgm
            rcases List.mem_append.mp hgm with hgm | hgm
            · exact hold' g hgm
            · rw [List.mem_singleton.mp hgm]; exact ⟨s1.byteIdx, by omega, hmid⟩
          · intro b' hb'
            by_cases hbb : b' ≤ s.byteIdx
            · obtain ⟨g, m1, m2⟩ := hold b' hbb
              refine ⟨g, ?_, m2⟩
              rcases List.mem_cons.mp m1 with m1 | m1
              · simp [m1]
              · simp [m1]
            · have : b' = s1.byteIdx := by rw [k2 h8] at hb' ⊢; omega
              subst this
              exact ⟨s1.file, by simp, hmid⟩
        · rw [if_neg h8]
          refine ⟨_, rfl, hold', fun b' hb' => hold b' (by rw [← (k1 h8).1]; exact hb'), fun h0 => ?_⟩
          have := (k1 h8).2
          omega
      obtain ⟨s2, seen2, e2, e3, h2, hg2, hc2, hm2⟩ := ih _ s1 seen1 h1 (by simp; omega) hg1 hc1 (fun _ => hm1)
      refine ⟨s2, seen2, ?_, ?_, by simpa using h2, by simpa using hg2, by simpa using hc2, by simpa using hm2⟩
      · rw [forEach_cons, e1']
        simp only [bind_ok]
        exact e2
      · rw [forEach_cons, e1]
        simp only [bind_ok]
        exact e3
  obtain ⟨f', hf', hl', hb'⟩ := markBits_spec hin hne
  have h0 : MarkInv file start [] ⟨file, start / 8, readInto file (start / 8) [0],
      bytesToBits (readInto file (start / 8) [0]), start % 8⟩ := by
    refine ⟨rfl, by rw [readInto_length]; rfl, by rw [bytesToBits_length, readInto_length]; rfl, by simp only; omega,
      by simp; omega, ?_, fun _ _ => rfl⟩
    intro i hi
    have hnot : ¬ (start ≤ i ∧ i < start + ([] : List Bool).length) := by simp
    rw [if_neg hnot]
    simp only
    by_cases hb : i / 8 = start / 8
    · rw [if_pos hb, readInto_one rfl hlt, bytesToBits_one]
      have e := bytesToBits_getElem? file i
      rw [hb, List.getElem?_eq_getElem hlt, Option.bind_some] at e
      exact e.symm
    · rw [if_neg hb]
  have hc0 : ∀ b ≤ start / 8, ∃ g ∈ file :: ([] : List Bytes), Partly file start [] b g := by
    intro b _
    refine ⟨file, by simp, rfl, fun i => ?_⟩
    rw [if_neg (by simp; omega)]
  obtain ⟨s, seen, e, e', h, hg, hc, hm⟩ := key xs [] _ [] h0 (by simpa using hin) (by simp) hc0 (by simp)
  rw [List.nil_append] at h hg hc hm
  have hjlt := h.j
  have hpp := h.pos
  have hfull : ∀ b, start + xs.length ≤ 8 * b → Partly file start xs b f' := fun b hb => ⟨hl', fun i => by
    rw [hb' i]
    by_cases hr : start ≤ i ∧ i < start + xs.length
    · rw [if_pos hr, if_pos (by omega)]
    · rw [if_neg hr, if_neg (by omega)]⟩
  have hf2 := hf'
  unfold markBits at hf2
  simp only [] at hf2
  rw [e', bind_ok] at hf2
  unfold markBitsSeen
  simp only []
  rw [e, bind_ok]
  simp only []
  by_cases hj : s.j ≠ 0
  · rw [if_pos hj] at hf2 ⊢
    obtain ⟨w, w1, w2⟩ := bind_eq_ok.mp hf2
    injection w2 with w2
    rw [w1, bind_ok]
    refine ⟨f', seen ++ [f'], by rw [← w2]; rfl, hf', by simp, ?_, ?_⟩
    · intro g hgm
      rcases List.mem_append.mp hgm with hgm | hgm
      · obtain ⟨b, -, hb⟩ := hg g hgm
        exact ⟨b, hb⟩
      · rw [List.mem_singleton.mp hgm]; exact ⟨file.length, hfull _ hin⟩
    · intro b
      by_cases hb : b ≤ s.byteIdx
      · obtain ⟨g, m1, m2⟩ := hc b hb
        refine ⟨g, ?_, m2⟩
        rcases List.mem_cons.mp m1 with m1 | m1
        · simp [m1]
        · simp [m1]
      · exact ⟨f', by simp, hfull b (by omega)⟩
  · have hj0 : s.j = 0 := by omega
    rw [if_neg hj] at hf2 ⊢
    injection hf2 with w2
    have hmem : f' ∈ seen := by rw [← w2]; exact hm hne hj0
    refine ⟨f', seen, by rw [← w2]; rfl, hf', hmem, ?_, ?_⟩
    · intro g hgm
      obtain ⟨b, -, hb⟩ := hg g hgm
      exact ⟨b, hb⟩
    · intro b
      by_cases hb : b ≤ s.byteIdx
      · exact hc b hb
      · exact ⟨f', by simp [hmem], hfull b (by omega)⟩

/-! ### the loop over the inputs -/

theorem lastInput_none {slot : Nat → Nat} {y k : Nat} (h : lastInput slot y k = none) : ∀ x < k, slot x ≠ y := by
  induction k with
  | zero => intro x hx; omega
  | succ k ih =>
    rw [lastInput] at h
    by_cases hk : slot k = y
    · rw [if_pos hk] at h; cases h
    · rw [if_neg hk] at h
      intro x hx
      by_cases hxk : x = k
      · rw [hxk]; exact hk
      · exact ih h x (by omega)

theorem lastInput_some {slot : Nat → Nat} {y k x : Nat} (h : lastInput slot y k = some x) :
    x < k ∧ slot x = y ∧ ∀ x' < k, slot x' = y → x' ≤ x := by
  induction k with
  | zero => cases h
  | succ k ih =>
    rw [lastInput] at h
    by_cases hk : slot k = y
    · rw [if_pos hk] at h
      injection h with h
      subst h
      exact ⟨by omega, hk, fun x' hx' _ => by omega⟩
    · rw [if_neg hk] at h
      obtain ⟨h1, h2, h3⟩ := ih h
      refine ⟨by omega, h2, fun x' hx' hs => ?_⟩
      by_cases hxk : x' = k
      · rw [hxk] at hs; exact absurd hs hk
      · exact h3 x' (by omega) hs

theorem lastInput_none_of {slot : Nat → Nat} {y k : Nat} (h : ∀ x < k, slot x ≠ y) : lastInput slot y k = none := by
  cases e : lastInput slot y k with
  | none => rfl
  | some x => exact absurd (lastInput_some e).2.1 (h x (lastInput_some e).1)

/-- One content of the file during `mark_space`: the inputs below `k` entered, and of `k` the bits in the
first `b` bytes of the file. -/
def Midway (slot : Nat → Nat) (n : Nat) (file g : Bytes) (k b : Nat) : Prop :=
  g.length = file.length ∧ ∀ i, (leNat g).testBit i =
    if i / (n + 1) = slot k ∧ i < 8 * b then (k + 2 ^ n).testBit (i % (n + 1))
    else tableBit slot n k (fun i => (leNat file).testBit i) i

theorem cell_bit {n k i s : Nat} (hk : k < 2 ^ n) (hi : i / (n + 1) = s) :
    (bitsOf n k ++ [true])[i - (n + 1) * s]? = some ((k + 2 ^ n).testBit (i % (n + 1))) := by
  have hm : i - (n + 1) * s = i % (n + 1) := by
    have := Nat.div_add_mod i (n + 1)
    rw [hi] at this
    omega
  have hlt := Nat.mod_lt i (show 0 < n + 1 by omega)
  rw [hm, bits_getElem? _ _ (by simp; omega), bitsVal_append, bitsVal_bitsOf, Nat.mod_eq_of_lt hk, bitsOf_length]
  simp [bitsVal]

theorem cell_range {n i s : Nat} : ((n + 1) * s ≤ i ∧ i < (n + 1) * s + (n + 1)) ↔ i / (n + 1) = s := by
  rw [Nat.div_eq_iff (show 0 < n + 1 by omega), Nat.mul_comm s]
  omega

theorem partly_midway {slot : Nat → Nat} {n k : Nat} {file f g : Bytes} (hk : k < 2 ^ n)
    (hfit : (n + 1) * slot k + (n + 1) ≤ 8 * file.length) (hl : f.length = file.length)
    (hf : ∀ i, (leNat f).testBit i = tableBit slot n k (fun i => (leNat file).testBit i) i)
    {b : Nat} (h : Partly f ((n + 1) * slot k) (bitsOf n k ++ [true]) b g) : Midway slot n file g k b := by
  obtain ⟨hgl, hg⟩ := h
  simp only [List.length_append, bitsOf_length, List.length_singleton] at hg
  refine ⟨by omega, fun i => ?_⟩
  by_cases hr : i / (n + 1) = slot k ∧ i < 8 * b
  · rw [if_pos hr]
    have hc := cell_range.mpr hr.1
    have := hg i
    rw [if_pos ⟨hc.1, hc.2, hr.2⟩, cell_bit hk hr.1, fileBit (by omega)] at this
    exact Option.some.inj this
  · rw [if_neg hr, ← hf i]
    have := hg i
    rw [if_neg (fun h => hr ⟨cell_range.mp ⟨h.1, h.2.1⟩, h.2.2⟩)] at this
    by_cases hi : i < 8 * file.length
    · rw [fileBit (by omega), fileBit (by omega)] at this
      exact Option.some.inj this
    · rw [fileBit_out (by omega), fileBit_out (by omega)]

theorem tableBit_succ {slot : Nat → Nat} {n k : Nat} {old : Nat → Bool} {i : Nat} :
    tableBit slot n (k + 1) old i =
      if i / (n + 1) = slot k then (k + 2 ^ n).testBit (i % (n + 1)) else tableBit slot n k old i := by
  unfold tableBit
  rw [lastInput]
  by_cases h : i / (n + 1) = slot k
  · rw [if_pos h, if_pos h.symm]
  · rw [if_neg h, if_neg (fun e => h e.symm)]

theorem markBits_table {slot : Nat → Nat} {n k : Nat} {file f f' : Bytes} (hk : k < 2 ^ n)
    (hfit : (n + 1) * slot k + (n + 1) ≤ 8 * file.length) (hl : f.length = file.length)
    (hf : ∀ i, (leNat f).testBit i = tableBit slot n k (fun i => (leNat file).testBit i) i)
    (h : markBits f ((n + 1) * slot k) (bitsOf n k ++ [true]) = .ok f') :
    f'.length = file.length ∧
      ∀ i, (leNat f').testBit i = tableBit slot n (k + 1) (fun i => (leNat file).testBit i) i := by
  obtain ⟨f2, e2, hl2, hb⟩ := markBits_spec (file := f) (start := (n + 1) * slot k) (xs := bitsOf n k ++ [true])
    (by simp; omega) (by simp)
  rw [h] at e2
  injection e2 with e2
  subst e2
  simp only [List.length_append, bitsOf_length, List.length_singleton] at hb
  refine ⟨by omega, fun i => ?_⟩
  rw [tableBit_succ]
  have := hb i
  by_cases hr : i / (n + 1) = slot k
  · have hc := cell_range.mpr hr
    rw [if_pos ⟨hc.1, hc.2⟩, cell_bit hk hr, fileBit (by omega)] at this
    rw [if_pos hr]
    exact Option.some.inj this
  · rw [if_neg (fun h => hr (cell_range.mp h))] at this
    rw [if_neg hr, ← hf i]
    by_cases hi : i < 8 * file.length
    · rw [fileBit (by omega), fileBit (by omega)] at this
      exact Option.some.inj this
    · rw [fileBit_out (by omega), fileBit_out (by omega)]

theorem markSpace_any {key m : ZMod q} {cs : List (ZMod q)} {n : Nat} (hn : 0 < n) (h64 : n < 64) {slot : Nat → Nat}
    (hslot : ∀ x, slotOf key m cs n x = .ok (slot x)) (hlt : ∀ x, slot x < 2 ^ n) {file : Bytes}
    (hlen : (n + 1) * 2 ^ n ≤ 8 * file.length) :
    ∃ out seen, markSpace file key m cs n = .ok out ∧ markSpaceSeen file key m cs n = .ok seen ∧
      file ∈ seen ∧ out ∈ seen ∧ out.length = file.length ∧
      (∀ i, (leNat out).testBit i = tableBit slot n (2 ^ n) (fun i => (leNat file).testBit i) i) ∧
      (∀ g ∈ seen, ∃ k < 2 ^ n, ∃ b, Midway slot n file g k b) ∧
      ∀ k < 2 ^ n, ∀ b, ∃ g ∈ seen, Midway slot n file g k b := by
  have key : ∀ k ≤ 2 ^ n, ∃ f seen,
      forUp k (fun x file => do
        let y ← slotOf key m cs n x
        let xBits ← usizeToBits x n
        let xBits := xBits ++ [true]
        markBits file ((n + 1) * y) xBits) file = .ok f ∧
      forUp k (fun x (s : Bytes × List Bytes) => do
        let y ← slotOf key m cs n x
        let xBits ← usizeToBits x n
        let xBits := xBits ++ [true]
        let r ← markBitsSeen s.1 ((n + 1) * y) xBits
        pure (r.1, s.2 ++ r.2)) (file, [file]) = .ok (f, seen) ∧
      file ∈ seen ∧ f ∈ seen ∧ f.length = file.length ∧
      (∀ i, (leNat f).testBit i = tableBit slot n k (fun i => (leNat file).testBit i) i) ∧
      (∀ g ∈ seen, ∃ k < 2 ^ n, ∃ b, Midway slot n file g k b) ∧
      ∀ k' < k, ∀ b, ∃ g ∈ seen, Midway slot n file g k' b := by
    intro k
    induction k with
    | zero =>
      intro _
      refine ⟨file, [file], rfl, rfl, by simp, by simp, rfl, fun i => rfl, ?_, by intro k' hk'; omega⟩
      intro g hg
      rw [List.mem_singleton.mp hg]
      refine ⟨0, Nat.two_pow_pos n, 0, rfl, fun i => ?_⟩
      rw [if_neg (by omega)]
      rfl
    | succ k ih =>
      intro hk
      obtain ⟨f, seen, e1, e2, m1, m2, hl, hb, hg, hc⟩ := ih (by omega)
      have hfit : (n + 1) * slot k + (n + 1) ≤ 8 * file.length := by
        have := Nat.mul_le_mul_left (n + 1) (hlt k)
        rw [Nat.mul_succ] at this
        omega
      obtain ⟨f', sn, b1, b2, b3, b4, b5⟩ := markBitsSeen_spec (file := f) (start := (n + 1) * slot k)
        (xs := bitsOf n k ++ [true]) (by simp; omega) (by simp)
      obtain ⟨t1, t2⟩ := markBits_table (by omega) hfit hl hb b2
      refine ⟨f', seen ++ sn, ?_, ?_, by simp [m1], by simp [b3], t1, t2, ?_, ?_⟩
      · rw [forUp_succ, e1, bind_ok, hslot, bind_ok, usizeToBits_eq _ _ hn, bind_ok]
        exact b2
      · rw [forUp_succ, e2, bind_ok, hslot, bind_ok, usizeToBits_eq _ _ hn, bind_ok]
        simp only [b1, bind_ok]
        rfl
      · intro g hgm
        rcases List.mem_append.mp hgm with hgm | hgm
        · exact hg g hgm
        · obtain ⟨b, he⟩ := b4 g hgm
          exact ⟨k, by omega, b, partly_midway (by omega) hfit hl hb he⟩
      · intro k' hk' b
        by_cases hkk : k' = k
        · subst hkk
          obtain ⟨g, g1, g2⟩ := b5 b
          refine ⟨g, ?_, partly_midway (by omega) hfit hl hb g2⟩
          rcases List.mem_cons.mp g1 with g1 | g1
          · rw [g1]; exact List.mem_append_left _ m2
          · exact List.mem_append_right _ g1
        · obtain ⟨g, g1, g2⟩ := hc k' (by omega) b
          exact ⟨g, List.mem_append_left _ g1, g2⟩
  obtain ⟨f, seen, e1, e2, m1, m2, hl, hb, hg, hc⟩ := key (2 ^ n) (le_refl _)
  refine ⟨f, seen, ?_, ?_, m1, m2, hl, hb, hg, hc⟩
  · unfold markSpace
    rw [show pow2! n = .ok (2 ^ n) from if_pos h64, bind_ok]
    exact e1
  · unfold markSpaceSeen
    rw [show pow2! n = .ok (2 ^ n) from if_pos h64, bind_ok, e2, bind_ok]
    rfl

end PoS
