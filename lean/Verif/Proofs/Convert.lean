import Verif.Model.Convert
import Verif.Proofs.Basic
import Mathlib.Tactic.Ring

/-
Lemmas about bit lists: values, packing into bytes, conversion to integers.
-/

namespace PoS

/-- Value of a little-endian bit list. -/
def bitsVal : List Bool → Nat
  | [] => 0
  | b :: bs => (if b then 1 else 0) + 2 * bitsVal bs

@[simp] theorem bitsOf_length (k x : Nat) : (bitsOf k x).length = k := by
  induction k generalizing x with
  | zero => rfl
  | succ k ih => simp [bitsOf, ih]

theorem bitsVal_lt (b : List Bool) : bitsVal b < 2 ^ b.length := by
  induction b with
  | nil => simp [bitsVal]
  | cons x b ih =>
    simp only [bitsVal, List.length_cons, Nat.pow_succ]
    cases x <;> simp <;> omega

theorem bitsVal_bitsOf (k x : Nat) : bitsVal (bitsOf k x) = x % 2 ^ k := by
  induction k generalizing x with
  | zero => simp [bitsOf, bitsVal, Nat.mod_one]
  | succ k ih =>
    simp only [bitsOf, bitsVal, ih]
    rw [Nat.pow_succ, Nat.mul_comm (2 ^ k) 2, Nat.mod_mul]
    have : x % 2 = 0 ∨ x % 2 = 1 := by omega
    rcases this with h | h <;> simp [h]

theorem bitsOf_bitsVal (b : List Bool) : bitsOf b.length (bitsVal b) = b := by
  induction b with
  | nil => rfl
  | cons x b ih =>
    simp only [List.length_cons, bitsOf, bitsVal]
    cases x
    · have h1 : (0 + 2 * bitsVal b) % 2 = 0 := by omega
      have h2 : (0 + 2 * bitsVal b) / 2 = bitsVal b := by omega
      simp only [Bool.false_eq_true, if_false, h1, h2, ih]
      simp
    · have h1 : (1 + 2 * bitsVal b) % 2 = 1 := by omega
      have h2 : (1 + 2 * bitsVal b) / 2 = bitsVal b := by omega
      simp only [if_true, h1, h2, ih]

theorem bitsVal_inj {a b : List Bool} (hl : a.length = b.length) (h : bitsVal a = bitsVal b) : a = b := by
  rw [← bitsOf_bitsVal a, ← bitsOf_bitsVal b, hl, h]

theorem bitsVal_append (a b : List Bool) : bitsVal (a ++ b) = bitsVal a + 2 ^ a.length * bitsVal b := by
  induction a with
  | nil => simp [bitsVal]
  | cons x a ih =>
    simp only [List.cons_append, bitsVal, ih, List.length_cons, Nat.pow_succ]
    ring

theorem bitsVal_replicate_false (k : Nat) : bitsVal (List.replicate k false) = 0 := by
  induction k with
  | zero => rfl
  | succ k ih => simp [List.replicate_succ, bitsVal, ih]

/-- Appending one more bit at the top. -/
theorem bitsOf_snoc (j tmp : Nat) (b : Bool) (h : tmp < 2 ^ j) :
    bitsOf (j + 1) (tmp + 2 ^ j * (if b = false then 0 else 1)) = bitsOf j tmp ++ [b] := by
  have hv : bitsVal (bitsOf j tmp) = tmp := by rw [bitsVal_bitsOf, Nat.mod_eq_of_lt h]
  apply bitsVal_inj (by simp)
  rw [bitsVal_bitsOf, bitsVal_append, hv, bitsOf_length]
  have : tmp + 2 ^ j * (if b = false then 0 else 1) < 2 ^ (j + 1) := by
    rw [Nat.pow_succ]
    cases b <;> simp <;> omega
  rw [Nat.mod_eq_of_lt this]
  cases b <;> simp [bitsVal]

theorem bitsOf_pad (j k tmp : Nat) (h : tmp < 2 ^ j) (hj : j ≤ k) :
    bitsOf k tmp = bitsOf j tmp ++ List.replicate (k - j) false := by
  apply bitsVal_inj (by simp; omega)
  rw [bitsVal_bitsOf, bitsVal_append, bitsVal_replicate_false, bitsVal_bitsOf, Nat.mul_zero, Nat.add_zero,
    Nat.mod_eq_of_lt h, Nat.mod_eq_of_lt (lt_of_lt_of_le h (Nat.pow_le_pow_right (by norm_num) hj))]

@[simp] theorem bytesToBits_nil : bytesToBits [] = [] := rfl

theorem bytesToBits_cons (b : UInt8) (l : Bytes) : bytesToBits (b :: l) = bitsOf 8 b.toNat ++ bytesToBits l := by
  simp [bytesToBits]

theorem bytesToBits_append (a b : Bytes) : bytesToBits (a ++ b) = bytesToBits a ++ bytesToBits b := by
  simp [bytesToBits]

@[simp] theorem bytesToBits_length (b : Bytes) : (bytesToBits b).length = 8 * b.length := by
  induction b with
  | nil => rfl
  | cons x b ih => rw [bytesToBits_cons]; simp [ih]; omega

theorem bytesToBits_inj {a b : Bytes} (h : bytesToBits a = bytesToBits b) : a = b := by
  induction a generalizing b with
  | nil =>
    have := congrArg List.length h
    simp at this
    exact this.symm ▸ rfl
  | cons x a ih =>
    cases b with
    | nil =>
      have := congrArg List.length h
      simp at this
    | cons y b =>
      rw [bytesToBits_cons, bytesToBits_cons] at h
      obtain ⟨h1, h2⟩ := List.append_inj h (by simp)
      have hv := congrArg bitsVal h1
      rw [bitsVal_bitsOf, bitsVal_bitsOf, Nat.mod_eq_of_lt (UInt8.toNat_lt x), Nat.mod_eq_of_lt (UInt8.toNat_lt y)] at hv
      rw [UInt8.toNat_inj.mp hv, ih h2]

theorem bytesToBits_getElem? (f : Bytes) (i : Nat) :
    (bytesToBits f)[i]? = f[i / 8]?.bind (fun b => (bitsOf 8 b.toNat)[i % 8]?) := by
  induction f generalizing i with
  | nil => simp
  | cons x f ih =>
    rw [bytesToBits_cons]
    by_cases h : i < 8
    · rw [List.getElem?_append_left (by simpa using h)]
      have h1 : i / 8 = 0 := by omega
      have h2 : i % 8 = i := by omega
      rw [h1, h2]
      rfl
    · rw [List.getElem?_append_right (by simp; omega), bitsOf_length, ih]
      have h1 : i / 8 = (i - 8) / 8 + 1 := by omega
      have h2 : (i - 8) % 8 = i % 8 := by omega
      rw [h1, h2, List.getElem?_cons_succ]

/-! ### packing -/

structure PackInv (l : List Bool) (s : PackState) : Prop where
  len : 8 * s.res.length + s.j = l.length
  j : s.j < 8
  base : s.base = 2 ^ s.j
  tmp : s.tmp < 2 ^ s.j
  bits : bytesToBits s.res ++ bitsOf s.j s.tmp = l

theorem packStep_inv {l : List Bool} {s : PackState} (h : PackInv l s) (b : Bool) :
    ∃ s', packStep b s = .ok s' ∧ PackInv (l ++ [b]) s' := by
  have hb : s.base ≤ 128 := by
    rw [h.base]
    calc 2 ^ s.j ≤ 2 ^ 7 := Nat.pow_le_pow_right (by norm_num) (by have := h.j; omega)
      _ = 128 := by norm_num
  have ht : s.tmp < s.base := by rw [h.base]; exact h.tmp
  have hp : s.base * (if b = false then 0 else 1) ≤ s.base := by cases b <;> simp
  have hsn := bitsOf_snoc s.j s.tmp b h.tmp
  have hlt : s.tmp + 2 ^ s.j * (if b = false then 0 else 1) < 2 ^ (s.j + 1) := by
    rw [Nat.pow_succ]
    have := h.tmp
    cases b <;> simp <;> omega
  unfold packStep
  rw [show u8! (s.base * (if b = false then 0 else 1)) = .ok (s.base * (if b = false then 0 else 1)) from
    if_pos (by omega), bind_ok,
    show u8! (s.tmp + s.base * (if b = false then 0 else 1)) = .ok _ from if_pos (by omega), bind_ok]
  by_cases hj : s.j + 1 = 8
  · rw [if_pos hj]
    refine ⟨_, rfl, ⟨?_, by norm_num, by norm_num, by norm_num, ?_⟩⟩
    · have := h.len; simp; omega
    · rw [hj] at hsn hlt
      have e : (UInt8.ofNat (s.tmp + s.base * (if b = false then 0 else 1))).toNat =
          s.tmp + 2 ^ s.j * (if b = false then 0 else 1) := by
        rw [UInt8.toNat_ofNat', h.base]
        exact Nat.mod_eq_of_lt hlt
      rw [bytesToBits_append, bytesToBits_cons, e, hsn, ← h.bits]
      simp [bitsOf]
  · have hb6 : s.base ≤ 64 := by
      rw [h.base]
      calc 2 ^ s.j ≤ 2 ^ 6 := Nat.pow_le_pow_right (by norm_num) (by have := h.j; omega)
        _ = 64 := by norm_num
    rw [if_neg hj, show u8! (s.base * 2) = .ok (s.base * 2) from if_pos (by omega), bind_ok]
    refine ⟨_, rfl, ⟨?_, ?_, ?_, ?_, ?_⟩⟩
    · have := h.len; simp; omega
    · have := h.j; simp only; omega
    · simp only; rw [h.base, Nat.pow_succ]
    · simp only; rw [h.base]; exact hlt
    · simp only; rw [h.base, hsn, ← h.bits]; simp

theorem bitsToBytes_spec (x : List Bool) :
    ∃ b, bitsToBytes x = .ok b ∧ b.length = (x.length + 7) / 8 ∧
      bytesToBits b = x ++ List.replicate (8 * b.length - x.length) false := by
  have key : ∀ (x l : List Bool) (s : PackState), PackInv l s →
      ∃ s', forEach x packStep s = .ok s' ∧ PackInv (l ++ x) s' := by
    intro x
    induction x with
    | nil => intro l s h; exact ⟨s, rfl, by simpa using h⟩
    | cons b x ih =>
      intro l s h
      obtain ⟨s1, e1, h1⟩ := packStep_inv h b
      obtain ⟨s2, e2, h2⟩ := ih _ _ h1
      refine ⟨s2, ?_, by simpa using h2⟩
      rw [forEach_cons, e1]
      simp only [bind_ok]
      exact e2
  obtain ⟨s, e, h⟩ := key x [] { res := [], j := 0, tmp := 0, base := 1 }
    ⟨rfl, by norm_num, by norm_num, by norm_num, rfl⟩
  rw [List.nil_append] at h
  unfold bitsToBytes
  rw [e, bind_ok]
  have hlen := h.len
  have hj := h.j
  by_cases hz : s.j ≠ 0
  · rw [if_pos hz]
    refine ⟨_, rfl, by simp; omega, ?_⟩
    have hlt : s.tmp < 256 := lt_of_lt_of_le h.tmp (by
      calc 2 ^ s.j ≤ 2 ^ 8 := Nat.pow_le_pow_right (by norm_num) (by omega)
        _ = 256 := by norm_num)
    have e : (UInt8.ofNat s.tmp).toNat = s.tmp := by
      rw [UInt8.toNat_ofNat']
      exact Nat.mod_eq_of_lt hlt
    rw [bytesToBits_append, bytesToBits_cons, e, bitsOf_pad s.j 8 s.tmp h.tmp (by omega)]
    conv_rhs => rw [← h.bits]
    simp only [bytesToBits_nil, List.append_nil, List.append_assoc, List.length_append, List.length_cons,
      List.length_nil, bytesToBits_length, bitsOf_length]
    congr 3
    omega
  · have hz : s.j = 0 := by omega
    rw [if_neg (by omega)]
    refine ⟨_, rfl, by omega, ?_⟩
    have hb := h.bits
    rw [hz] at hb
    rw [show 8 * s.res.length - x.length = 0 by omega, ← hb]
    simp [bitsOf]

theorem bitsToBytes_bytesToBits (x : Bytes) : bitsToBytes (bytesToBits x) = .ok x := by
  obtain ⟨b, h1, h2, h3⟩ := bitsToBytes_spec (bytesToBits x)
  rw [h1]
  have : b.length = x.length := by rw [h2]; simp; omega
  rw [this] at h3
  simp at h3
  rw [bytesToBits_inj h3]

/-! ### integers -/

theorem usize!_ok {n : Nat} (h : n < 2 ^ 64) : usize! n = .ok n := if_pos h

theorem bitsToUsize_loop (x : List Bool) (r k : Nat) (hk : k + x.length ≤ 63) (hr : r < 2 ^ k) :
    forEach x (fun b (s : Nat × Nat) => do
      let prod ← usize! (s.2 * (if b = false then 0 else 1))
      let res ← usize! (s.1 + prod)
      let base ← usize! (s.2 * 2)
      pure (res, base)) (r, 2 ^ k) = .ok (r + 2 ^ k * bitsVal x, 2 ^ (k + x.length)) := by
  induction x generalizing r k with
  | nil => simp [forEach, bitsVal]
  | cons b x ih =>
    simp only [List.length_cons] at hk
    have hp : 2 ^ k * (if b = false then 0 else 1) ≤ 2 ^ k := by cases b <;> simp
    have hk63 : (2 : Nat) ^ (k + 1) ≤ 2 ^ 63 := Nat.pow_le_pow_right (by norm_num) (by omega)
    have hs : (2 : Nat) ^ (k + 1) = 2 ^ k * 2 := Nat.pow_succ 2 k
    have h64 : (2 : Nat) ^ 64 = 2 ^ 63 * 2 := by norm_num
    rw [forEach_cons, usize!_ok (by simp only; omega), bind_ok, usize!_ok (by simp only; omega), bind_ok,
      usize!_ok (by simp only; omega), bind_ok]
    show forEach x _ (r + 2 ^ k * (if b = false then 0 else 1), 2 ^ k * 2) = _
    rw [← hs, ih _ (k + 1) (by omega) (by omega)]
    congr 2
    · rw [hs, bitsVal]
      cases b <;> simp <;> ring
    · simp only [List.length_cons]; congr 1; omega

theorem bitsToUsize_eq (x : List Bool) (h : x.length < 64) : bitsToUsize x = .ok (bitsVal x) := by
  unfold bitsToUsize
  have := bitsToUsize_loop x 0 0 (by omega) (by norm_num)
  rw [Nat.pow_zero] at this
  rw [this, bind_ok]
  simp

theorem forEach_append {α σ : Type} (l l' : List α) (f : α → σ → R σ) (s : σ) :
    forEach (l ++ l') f s = (forEach l f s >>= forEach l' f) := by
  induction l generalizing s with
  | nil => rfl
  | cons a l ih =>
    rw [List.cons_append, forEach_cons, forEach_cons]
    cases f a s with
    | error e => rfl
    | ok t => rw [bind_ok, bind_ok, ih]

theorem bitsToUsize_overflow (x : List Bool) (h : 64 ≤ x.length) : bitsToUsize x = .error .overflow := by
  have hx : x = x.take 63 ++ x[63] :: x.drop 64 := by
    conv_lhs => rw [← List.take_append_drop 63 x]
    rw [List.drop_eq_getElem_cons (by omega)]
  have hl : (x.take 63).length = 63 := by simp; omega
  unfold bitsToUsize
  rw [hx, forEach_append]
  have := bitsToUsize_loop (x.take 63) 0 0 (by omega) (by norm_num)
  rw [Nat.pow_zero, hl] at this
  rw [this, bind_ok, forEach_cons]
  have hv := bitsVal_lt (x.take 63)
  rw [hl] at hv
  have h64 : (2 : Nat) ^ 64 = 2 ^ 63 * 2 := by norm_num
  have hp : 2 ^ (0 + 63) * (if x[63] = false then 0 else 1) ≤ 2 ^ 63 := by cases x[63] <;> simp
  simp only []
  rw [usize!_ok (by omega), bind_ok, usize!_ok (by omega), bind_ok]
  have : usize! (2 ^ (0 + 63) * 2) = .error .overflow := if_neg (by omega)
  rw [this]
  rfl

theorem usizeToBitsLoop_eq (n fuel x i : Nat) (pre : List Bool) (hf : x ≤ fuel) (hi : pre.length = i) (hin : i < n) :
    usizeToBitsLoop n fuel x i (pre ++ List.replicate (n - i) false) = .ok (pre ++ bitsOf (n - i) x) := by
  induction fuel generalizing x i pre with
  | zero =>
    have : x = 0 := by omega
    subst this
    unfold usizeToBitsLoop
    have := bitsOf_pad 0 (n - i) 0 (by norm_num) (by omega)
    rw [this]
    simp [bitsOf]
  | succ fuel ih =>
    unfold usizeToBitsLoop
    by_cases hx : x > 0
    · rw [if_pos hx]
      have hrep : List.replicate (n - i) false = false :: List.replicate (n - (i + 1)) false := by
        rw [show n - i = (n - (i + 1)) + 1 by omega, List.replicate_succ]
      have hset : (pre ++ List.replicate (n - i) false).set i true =
          (pre ++ [true]) ++ List.replicate (n - (i + 1)) false := by
        rw [hrep, List.set_append_right _ _ (by omega), hi, Nat.sub_self]
        simp
      have hres : (if x % 2 = 1 then put! (pre ++ List.replicate (n - i) false) i true
          else pure (pre ++ List.replicate (n - i) false) : R (List Bool)) =
          .ok ((pre ++ [if x % 2 = 1 then true else false]) ++ List.replicate (n - (i + 1)) false) := by
        by_cases h2 : x % 2 = 1
        · rw [if_pos h2, if_pos h2]
          unfold put!
          rw [if_pos (by simp; omega), hset]
        · rw [if_neg h2, if_neg h2, hrep]
          simp
      have hb : bitsOf (n - i) x = (if x % 2 = 1 then true else false) :: bitsOf (n - (i + 1)) (x / 2) := by
        rw [show n - i = (n - (i + 1)) + 1 by omega]
        rfl
      rw [hres, bind_ok]
      by_cases hn : i + 1 ≥ n
      · simp only [hn, if_true]
        rw [hb, show n - (i + 1) = 0 by omega]
        simp [bitsOf]
      · simp only [hn, if_false]
        rw [ih (x / 2) (i + 1) _ (by omega) (by simp [hi]) (by omega), hb]
        simp
    · have : x = 0 := by omega
      subst this
      rw [if_neg hx]
      have := bitsOf_pad 0 (n - i) 0 (by norm_num) (by omega)
      rw [this]
      simp [bitsOf]

theorem usizeToBits_eq (x n : Nat) (h : 0 < n) : usizeToBits x n = .ok (bitsOf n x) := by
  have := usizeToBitsLoop_eq n x x 0 [] (Nat.le_refl _) rfl h
  simpa [usizeToBits] using this

end PoS
