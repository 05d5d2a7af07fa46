import Verif.Basic
import Mathlib.Tactic.Ring
import Mathlib.Tactic.Linarith

/-
Helper lemmas about the vocabulary of `Verif/Basic.lean`.
-/

namespace PoS

@[simp] theorem bind_ok {ε α β : Type} (a : α) (f : α → Except ε β) :
    (Except.ok a >>= f) = f a := rfl

@[simp] theorem bind_error {ε α β : Type} (e : ε) (f : α → Except ε β) :
    ((Except.error e : Except ε α) >>= f) = Except.error e := rfl

@[simp] theorem pure_eq_ok {ε α : Type} (a : α) : (pure a : Except ε α) = Except.ok a := rfl

theorem bind_eq_ok {ε α β : Type} {x : Except ε α} {f : α → Except ε β} {b : β} :
    (x >>= f) = Except.ok b ↔ ∃ a, x = Except.ok a ∧ f a = Except.ok b := by
  cases x with
  | ok a => simp
  | error e => simp

theorem at!_eq_ok {α : Type} {l : List α} {i : Nat} {a : α} :
    at! l i = .ok a ↔ l[i]? = some a := by
  unfold at!
  cases h : l[i]? <;> simp

theorem at!_of_lt {α : Type} {l : List α} {i : Nat} (h : i < l.length) :
    at! l i = .ok l[i] := by
  rw [at!_eq_ok]; simp [h]

theorem at!_ge {α : Type} {l : List α} {i : Nat} (h : l.length ≤ i) :
    at! l i = .error .index := by
  unfold at!
  rw [List.getElem?_eq_none h]

theorem put!_eq_ok {α : Type} {l l' : List α} {i : Nat} {a : α} :
    put! l i a = .ok l' ↔ i < l.length ∧ l' = l.set i a := by
  unfold put!
  split
  · rename_i h; simp [h, eq_comm]
  · rename_i h; simp [h]

theorem put!_of_lt {α : Type} {l : List α} {i : Nat} {a : α} (h : i < l.length) :
    put! l i a = .ok (l.set i a) := by simp [put!, h]

theorem sub!_of_le {a b : Nat} (h : b ≤ a) : sub! a b = .ok (a - b) := by simp [sub!, h]

theorem sub!_of_lt {a b : Nat} (h : a < b) : sub! a b = .error .overflow := by
  simp [sub!, Nat.not_le.mpr h]

theorem div!_of_pos {a b : Nat} (h : 0 < b) : div! a b = .ok (a / b) := by
  simp [div!, Nat.pos_iff_ne_zero.mp h]

theorem mod!_of_pos {a b : Nat} (h : 0 < b) : mod! a b = .ok (a % b) := by
  simp [mod!, Nat.pos_iff_ne_zero.mp h]

theorem slice!_eq_ok {α : Type} {l r : List α} {a b : Nat} :
    slice! l a b = .ok r ↔ (a ≤ b ∧ b ≤ l.length) ∧ r = (l.drop a).take (b - a) := by
  unfold slice!
  split
  · rename_i h; simp [h, eq_comm]
  · rename_i h; simp [h]

/-! ### Loops -/

@[simp] theorem forUp_zero {σ : Type} (f : Nat → σ → R σ) (s : σ) : forUp 0 f s = .ok s := rfl

theorem forUp_succ {σ : Type} (n : Nat) (f : Nat → σ → R σ) (s : σ) :
    forUp (n + 1) f s = (forUp n f s >>= f n) := rfl

/-- Peeling the first iteration. -/
theorem forUp_succ' {σ : Type} (n : Nat) (f : Nat → σ → R σ) (s : σ) :
    forUp (n + 1) f s = (f 0 s >>= forUp n (fun i => f (i + 1))) := by
  induction n with
  | zero =>
    simp only [forUp_succ, forUp_zero, bind_ok]
    cases f 0 s <;> rfl
  | succ n ih =>
    rw [forUp_succ, ih]
    cases h : f 0 s with
    | error e => rfl
    | ok a => simp only [bind_ok]; rfl

theorem forUp_congr {σ : Type} {n : Nat} {f g : Nat → σ → R σ} {s : σ}
    (h : ∀ k < n, ∀ s, f k s = g k s) : forUp n f s = forUp n g s := by
  induction n with
  | zero => rfl
  | succ n ih =>
    rw [forUp_succ, forUp_succ, ih (fun k hk => h k (Nat.lt_succ_of_lt hk))]
    cases forUp n g s with
    | error e => rfl
    | ok a => exact h n (Nat.lt_succ_self n) a

/-- Loop rule for runs that finish. -/
theorem forUp_inv {σ : Type} {n : Nat} {f : Nat → σ → R σ} {s t : σ} (P : Nat → σ → Prop)
    (h0 : P 0 s) (hstep : ∀ k < n, ∀ s s', P k s → f k s = .ok s' → P (k + 1) s')
    (hrun : forUp n f s = .ok t) : P n t := by
  induction n generalizing t with
  | zero => simp at hrun; exact hrun ▸ h0
  | succ n ih =>
    rw [forUp_succ, bind_eq_ok] at hrun
    obtain ⟨a, ha, hf⟩ := hrun
    exact hstep n (Nat.lt_succ_self n) a t
      (ih (fun k hk => hstep k (Nat.lt_succ_of_lt hk)) ha) hf

/-- A loop whose steps succeed exactly under `P`: it ends, or it panics at the first step without `P`. -/
theorem forUp_decide {σ : Type} {n : Nat} {f : Nat → σ → R σ} {s : σ} {e : Panic} (P : Nat → Prop) (inv : Nat → σ → Prop)
    (h0 : inv 0 s) (hstep : ∀ k < n, ∀ s, inv k s →
      (P k ∧ ∃ s', f k s = .ok s' ∧ inv (k + 1) s') ∨ (¬ P k ∧ f k s = .error e)) :
    ((∀ k < n, P k) ∧ ∃ t, forUp n f s = .ok t ∧ inv n t) ∨
    ((∃ m < n, (∀ k < m, P k) ∧ ¬ P m ∧ ∃ t, forUp m f s = .ok t ∧ inv m t ∧ f m t = .error e) ∧
      forUp n f s = .error e) := by
  induction n with
  | zero => exact Or.inl ⟨fun k hk => absurd hk (by omega), s, rfl, h0⟩
  | succ n ih =>
    rcases ih (fun k hk => hstep k (by omega)) with ⟨hP, t, ht, hi⟩ | ⟨⟨m, hm, h⟩, he⟩
    · rcases hstep n (by omega) t hi with ⟨hn, t', ht', hi'⟩ | ⟨hn, he⟩
      · refine Or.inl ⟨fun k hk => ?_, t', by rw [forUp_succ, ht]; exact ht', hi'⟩
        rcases Nat.lt_or_ge k n with h | h
        · exact hP k h
        · rwa [show k = n by omega]
      · exact Or.inr ⟨⟨n, by omega, hP, hn, t, ht, hi, he⟩, by rw [forUp_succ, ht]; exact he⟩
    · exact Or.inr ⟨⟨m, by omega, h⟩, by rw [forUp_succ, he]; rfl⟩

/-- Loop rule for total correctness. -/
theorem forUp_total {σ : Type} {n : Nat} {f : Nat → σ → R σ} {s : σ} (P : Nat → σ → Prop)
    (h0 : P 0 s) (hstep : ∀ k < n, ∀ s, P k s → ∃ s', f k s = .ok s' ∧ P (k + 1) s') :
    ∃ t, forUp n f s = .ok t ∧ P n t := by
  induction n with
  | zero => exact ⟨s, rfl, h0⟩
  | succ n ih =>
    obtain ⟨t, ht, hp⟩ := ih (fun k hk => hstep k (Nat.lt_succ_of_lt hk))
    obtain ⟨t', ht', hp'⟩ := hstep n (Nat.lt_succ_self n) t hp
    exact ⟨t', by rw [forUp_succ, ht]; exact ht', hp'⟩

/-- A loop whose body is `ok (g k s)` is a pure fold. -/
theorem forUp_error_of {σ : Type} {n k : Nat} {f : Nat → σ → R σ} {s t : σ} {e : Panic}
    (hk : k < n) (hpre : forUp k f s = .ok t) (herr : f k t = .error e) :
    forUp n f s = .error e := by
  induction n with
  | zero => omega
  | succ n ih =>
    rw [forUp_succ]
    rcases Nat.lt_succ_iff_lt_or_eq.mp hk with h | h
    · rw [ih h]; rfl
    · subst h; rw [hpre]; exact herr

@[simp] theorem forEach_nil {α σ : Type} (f : α → σ → R σ) (s : σ) :
    forEach [] f s = .ok s := rfl

theorem forEach_cons {α σ : Type} (x : α) (xs : List α) (f : α → σ → R σ) (s : σ) :
    forEach (x :: xs) f s = (f x s >>= forEach xs f) := rfl

/-- Running an indexed loop downwards, as in `for j in 0..n { idx = n - 1 - j; .. }`. -/
def forDown {σ : Type} (n : Nat) (g : Nat → σ → R σ) (s : σ) : R σ :=
  forUp n (fun j s => do
    let a ← sub! n 1
    let idx ← sub! a j
    g idx s) s

theorem forDown_zero {σ : Type} (g : Nat → σ → R σ) (s : σ) : forDown 0 g s = .ok s := rfl

theorem forDown_succ {σ : Type} (n : Nat) (g : Nat → σ → R σ) (s : σ) :
    forDown (n + 1) g s = (g n s >>= forDown n g) := by
  unfold forDown
  rw [forUp_succ']
  have h1 : sub! (n + 1) 1 = .ok n := by simp [sub!]
  have h2 : sub! n 0 = .ok n := by simp [sub!]
  simp only [h1, h2, bind_ok]
  congr 1
  funext t
  apply forUp_congr
  intro k hk s
  have h3 : sub! n (k + 1) = .ok (n - (k + 1)) := sub!_of_le hk
  have h4 : sub! n 1 = .ok (n - 1) := sub!_of_le (by omega)
  have h5 : sub! (n - 1) k = .ok (n - 1 - k) := sub!_of_le (by omega)
  simp only [h3, h4, h5, bind_ok]
  congr 1
  omega

/-- The reverse loop undoes the forward loop when each backward step undoes the
corresponding forward step.  `π` forgets the part of the forward state that the
backward loop does not have, `Good` is a condition on the final state that carries
over to all earlier states. -/
theorem forUp_forDown {σ τ : Type} {n : Nat} {f : Nat → σ → R σ} {g : Nat → τ → R τ}
    {π : σ → τ} {Good : σ → Prop} {s t : σ} (P : Nat → σ → Prop)
    (h0 : P 0 s)
    (hstep : ∀ k < n, ∀ s s', P k s → f k s = .ok s' →
      P (k + 1) s' ∧ (Good s' → Good s ∧ g k (π s') = .ok (π s)))
    (hrun : forUp n f s = .ok t) (hgood : Good t) :
    Good s ∧ forDown n g (π t) = .ok (π s) := by
  induction n generalizing t with
  | zero =>
    simp at hrun; subst hrun
    exact ⟨hgood, rfl⟩
  | succ n ih =>
    rw [forUp_succ, bind_eq_ok] at hrun
    obtain ⟨a, ha, hf⟩ := hrun
    have hP : P n a := forUp_inv P h0
      (fun k hk s s' hs hs' => (hstep k (Nat.lt_succ_of_lt hk) s s' hs hs').1) ha
    obtain ⟨hga, hback⟩ := (hstep n (Nat.lt_succ_self n) a t hP hf).2 hgood
    obtain ⟨hgs, hrest⟩ := ih (fun k hk => hstep k (Nat.lt_succ_of_lt hk)) ha hga
    refine ⟨hgs, ?_⟩
    rw [forDown_succ, hback, bind_ok]
    exact hrest

/-- The same for a loop whose body does not use the counter (rounds). -/
theorem forUp_forUp_const {σ τ : Type} {n : Nat} {f : σ → R σ} {g : τ → R τ}
    {π : σ → τ} {Good : σ → Prop} {s t : σ} (P : σ → Prop)
    (h0 : P s)
    (hstep : ∀ s s', P s → f s = .ok s' →
      P s' ∧ (Good s' → Good s ∧ g (π s') = .ok (π s)))
    (hrun : forUp n (fun _ => f) s = .ok t) (hgood : Good t) :
    Good s ∧ forUp n (fun _ => g) (π t) = .ok (π s) := by
  induction n generalizing t with
  | zero => simp at hrun; subst hrun; exact ⟨hgood, rfl⟩
  | succ n ih =>
    rw [forUp_succ, bind_eq_ok] at hrun
    obtain ⟨a, ha, hf⟩ := hrun
    have hP : P a := forUp_inv (fun _ s => P s) h0
      (fun k hk s s' hs hs' => (hstep s s' hs hs').1) ha
    obtain ⟨hga, hback⟩ := (hstep a t hP hf).2 hgood
    obtain ⟨hgs, hrest⟩ := ih ha hga
    refine ⟨hgs, ?_⟩
    rw [forUp_succ', hback, bind_ok]
    exact hrest

/-! ### Little-endian numbers -/

theorem leNat_lt (bs : Bytes) : leNat bs < 256 ^ bs.length := by
  induction bs with
  | nil => simp [leNat]
  | cons b bs ih =>
    have hb : b.toNat < 256 := UInt8.toNat_lt b
    simp only [leNat, List.length_cons, Nat.pow_succ]
    omega

theorem leNat_append (a b : Bytes) : leNat (a ++ b) = leNat a + 256 ^ a.length * leNat b := by
  induction a with
  | nil => simp [leNat]
  | cons x a ih =>
    simp only [List.cons_append, leNat, ih, List.length_cons, Nat.pow_succ]
    ring

@[simp] theorem leNat_zeros (n : Nat) : leNat (zeros n) = 0 := by
  induction n with
  | zero => rfl
  | succ n ih =>
    have : zeros (n + 1) = 0 :: zeros n := rfl
    rw [this]; simp [leNat, ih]

@[simp] theorem zeros_length (n : Nat) : (zeros n).length = n := by simp [zeros]

@[simp] theorem leNat_append_zeros (a : Bytes) (n : Nat) : leNat (a ++ zeros n) = leNat a := by
  simp [leNat_append]

theorem leNat_inj {a b : Bytes} (hl : a.length = b.length) (h : leNat a = leNat b) : a = b := by
  induction a generalizing b with
  | nil => cases b with
    | nil => rfl
    | cons _ _ => simp at hl
  | cons x a ih =>
    cases b with
    | nil => simp at hl
    | cons y b =>
      simp only [leNat] at h
      have hx := UInt8.toNat_lt x
      have hy := UInt8.toNat_lt y
      have h1 : x.toNat = y.toNat := by omega
      have h2 : leNat a = leNat b := by omega
      rw [UInt8.toNat_inj.mp h1, ih (by simpa using hl) h2]

theorem leNat_toLEAux (fuel n : Nat) (h : n ≤ fuel) : leNat (toLEAux fuel n) = n := by
  induction fuel generalizing n with
  | zero => have : n = 0 := by omega
            subst this; rfl
  | succ fuel ih =>
    unfold toLEAux
    split
    · rename_i h0; subst h0; rfl
    · rename_i h0
      have hlt : n / 256 ≤ fuel := by omega
      have hm : (UInt8.ofNat (n % 256)).toNat = n % 256 := by
        rw [UInt8.toNat_ofNat']; exact Nat.mod_eq_of_lt (Nat.mod_lt _ (by norm_num))
      simp only [leNat, ih _ hlt, hm]
      omega

@[simp] theorem leNat_toLE (n : Nat) : leNat (toLE n) = n := leNat_toLEAux n n (Nat.le_refl n)

theorem toLEAux_length (fuel n l : Nat) (h : n < 256 ^ l) : (toLEAux fuel n).length ≤ l := by
  induction l generalizing fuel n with
  | zero =>
    have : n = 0 := by simpa using h
    subst this
    cases fuel <;> simp [toLEAux]
  | succ l ih =>
    cases fuel with
    | zero => simp [toLEAux]
    | succ fuel =>
      unfold toLEAux
      split
      · simp
      · have : n / 256 < 256 ^ l := by
          rw [Nat.pow_succ] at h
          omega
        simp only [List.length_cons]
        exact Nat.succ_le_succ (ih fuel _ this)

theorem toLE_length {n l : Nat} (h : n < 256 ^ l) : (toLE n).length ≤ l := toLEAux_length n n l h

/-- Minimality: the digit string is not longer than needed. -/
theorem toLE_length_gt {n l : Nat} (h : 256 ^ l ≤ n) : l < (toLE n).length := by
  by_contra hc
  have h1 := leNat_lt (toLE n)
  rw [leNat_toLE] at h1
  have : 256 ^ (toLE n).length ≤ 256 ^ l := Nat.pow_le_pow_right (by norm_num) (by omega)
  omega

theorem toLE_zero : toLE 0 = [] := rfl

/-- Padding the digits of the value of a byte string to its length gives it back. -/
theorem toLE_pad (bs : Bytes) :
    toLE (leNat bs) ++ zeros (bs.length - (toLE (leNat bs)).length) = bs := by
  have h := toLE_length (leNat_lt bs)
  apply leNat_inj
  · simp; omega
  · simp

/-! ### Files -/

theorem writeAt_getElem? (f d : Bytes) (off i : Nat) (h : off ≤ f.length) :
    (writeAt f off d)[i]? = if off ≤ i ∧ i < off + d.length then d[i - off]? else f[i]? := by
  have hz : zeros (off - f.length) = [] := by
    rw [Nat.sub_eq_zero_of_le h]; rfl
  unfold writeAt
  rw [hz, List.append_nil, List.append_assoc]
  by_cases h1 : i < off
  · rw [List.getElem?_append_left (by simp; omega), List.getElem?_take_of_lt h1]
    rw [if_neg (by omega)]
  · rw [List.getElem?_append_right (by simp; omega)]
    have hl : (List.take off f).length = off := by simp [h]
    rw [hl]
    by_cases h2 : i < off + d.length
    · rw [if_pos (by omega), List.getElem?_append_left (by omega)]
    · rw [if_neg (by omega), List.getElem?_append_right (by omega), List.getElem?_drop]
      congr 1
      omega

theorem writeAt_length (f d : Bytes) (off : Nat) (h : off + d.length ≤ f.length) :
    (writeAt f off d).length = f.length := by
  unfold writeAt
  simp
  omega

end PoS
