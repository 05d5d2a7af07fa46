import Verif.Model.Common
import Verif.Proofs.Basic

/-
Helper lemmas about `Verif/Model/Common.lean`.
-/

namespace PoS

@[simp] theorem readFile_length (f : Bytes) (b l : Nat) : (readFile f b l).length = l := by
  unfold readFile
  simp

theorem readFile_getElem? (f : Bytes) (b l i : Nat) :
    (readFile f b l)[i]? = if i < l then some (f[b + i]?.getD 0) else none := by
  unfold readFile
  simp only
  by_cases h : i < ((f.drop b).take l).length
  · rw [List.getElem?_append_left h]
    simp only [List.length_take, List.length_drop] at h
    rw [if_pos (by omega), List.getElem?_take_of_lt (by omega), List.getElem?_drop]
    have : b + i < f.length := by omega
    simp [this]
  · rw [List.getElem?_append_right (by omega)]
    simp only [List.length_take, List.length_drop] at h ⊢
    by_cases hl : i < l
    · rw [if_pos hl]
      have h1 : f.length ≤ b + i := by omega
      rw [List.getElem?_eq_none h1]
      unfold zeros
      rw [List.getElem?_replicate, if_pos (by omega)]
      rfl
    · rw [if_neg hl]
      unfold zeros
      rw [List.getElem?_replicate, if_neg (by omega)]

theorem readFile_eq_take_drop (f : Bytes) (b l : Nat) (h : b + l ≤ f.length) :
    readFile f b l = (f.drop b).take l := by
  unfold readFile
  have : ((f.drop b).take l).length = l := by simp; omega
  simp only [this, Nat.sub_self]
  exact List.append_nil _

theorem readFile_writeAt_same (f d : Bytes) (off : Nat) (h : off ≤ f.length) :
    readFile (writeAt f off d) off d.length = d := by
  apply List.ext_getElem?
  intro i
  rw [readFile_getElem?, writeAt_getElem? _ _ _ _ h]
  by_cases hi : i < d.length
  · rw [if_pos hi, if_pos (by omega)]
    simp [hi]
  · rw [if_neg hi, List.getElem?_eq_none (by omega)]

theorem readFile_writeAt_disjoint (f d : Bytes) (off b l : Nat) (h : off ≤ f.length)
    (hd : b + l ≤ off ∨ off + d.length ≤ b) :
    readFile (writeAt f off d) b l = readFile f b l := by
  apply List.ext_getElem?
  intro i
  rw [readFile_getElem?, readFile_getElem?, writeAt_getElem? _ _ _ _ h]
  by_cases hi : i < l
  · rw [if_pos hi, if_pos hi, if_neg (by omega)]
  · rw [if_neg hi, if_neg hi]

theorem writeAt_writeAt_read (f d : Bytes) (off : Nat) (h : off + d.length ≤ f.length) :
    writeAt (writeAt f off d) off (readFile f off d.length) = f := by
  apply List.ext_getElem?
  intro i
  rw [writeAt_getElem? _ _ _ _ (by rw [writeAt_length _ _ _ h]; omega),
    writeAt_getElem? _ _ _ _ (by omega), readFile_getElem?, readFile_length]
  by_cases hi : off ≤ i ∧ i < off + d.length
  · rw [if_pos hi, if_pos (by omega)]
    have : off + (i - off) = i := by omega
    rw [this]
    have h2 : i < f.length := by omega
    simp [h2]
  · rw [if_neg hi, if_neg hi]

/-! ### Units -/

theorem toUnitsAux_append (us : List Bytes) (len : Nat) (hlen : 0 < len) (pre : Bytes) (fuel : Nat)
    (hus : ∀ u ∈ us, u.length = len) (hf : us.length ≤ fuel) :
    toUnitsAux fuel (pre ++ us.flatten) len pre.length = .ok us := by
  induction us generalizing pre fuel with
  | nil =>
    cases fuel with
    | zero => rfl
    | succ fuel => simp [toUnitsAux]
  | cons u us ih =>
    cases fuel with
    | zero => simp at hf
    | succ fuel =>
      have hu : u.length = len := hus u (by simp)
      unfold toUnitsAux
      rw [if_pos (by simp; omega)]
      have hs : slice! (pre ++ (u :: us).flatten) pre.length (pre.length + len) = .ok u := by
        rw [slice!_eq_ok]
        refine ⟨⟨by omega, by simp; omega⟩, ?_⟩
        rw [List.drop_left]
        have : pre.length + len - pre.length = u.length := by omega
        rw [this]
        simp
      rw [hs]
      simp only [bind_ok]
      have := ih (pre ++ u) fuel (fun v hv => hus v (by simp [hv])) (by simp at hf; omega)
      have e1 : pre ++ (u :: us).flatten = (pre ++ u) ++ us.flatten := by simp
      have e2 : pre.length + len = (pre ++ u).length := by simp [hu]
      rw [e1, e2, this]
      rfl

theorem flatten_length_const (us : List Bytes) (len : Nat) (hus : ∀ u ∈ us, u.length = len) :
    us.flatten.length = us.length * len := by
  induction us with
  | nil => simp
  | cons u us ih =>
    simp only [List.flatten_cons, List.length_append, List.length_cons]
    rw [ih (fun v hv => hus v (by simp [hv])), hus u (by simp)]
    ring

theorem toUnits_flatten (us : List Bytes) (len : Nat) (hlen : 0 < len)
    (hus : ∀ u ∈ us, u.length = len) : toUnits us.flatten len = .ok us := by
  unfold toUnits
  rw [if_neg (by omega)]
  have hl := flatten_length_const us len hus
  have := toUnitsAux_append us len hlen [] us.flatten.length hus
    (by rw [hl]; exact Nat.le_mul_of_pos_right _ hlen)
  simpa using this

/-- Every byte string of length `n * len` is a concatenation of `n` strings of length `len`. -/
theorem exists_units (data : Bytes) (len n : Nat) (h : data.length = n * len) :
    ∃ us : List Bytes, us.length = n ∧ (∀ u ∈ us, u.length = len) ∧ us.flatten = data := by
  induction n generalizing data with
  | zero =>
    refine ⟨[], rfl, by simp, ?_⟩
    simp at h
    simp [h]
  | succ n ih =>
    have hl : len ≤ data.length := by rw [h, Nat.succ_mul]; omega
    obtain ⟨us, h1, h2, h3⟩ := ih (data.drop len) (by simp [h, Nat.succ_mul])
    refine ⟨data.take len :: us, by simp [h1], ?_, by simp [h3]⟩
    intro u hu
    rcases List.mem_cons.mp hu with rfl | hu
    · simp [hl]
    · exact h2 u hu

theorem toUnits_ok (data : Bytes) (len n : Nat) (hlen : 0 < len) (h : data.length = n * len) :
    ∃ us : List Bytes, toUnits data len = .ok us ∧ us.length = n ∧
      (∀ u ∈ us, u.length = len) ∧ us.flatten = data := by
  obtain ⟨us, h1, h2, h3⟩ := exists_units data len n h
  exact ⟨us, h3 ▸ toUnits_flatten us len hlen h2, h1, h2, h3⟩

theorem toUnitsAux_error (data : Bytes) (len : Nat) (hlen : 0 < len) (fuel i : Nat)
    (hf : data.length ≤ fuel + i) (hi : i ≤ data.length)
    (hnd : ¬ len ∣ data.length - i) : toUnitsAux fuel data len i = .error .index := by
  induction fuel generalizing i with
  | zero =>
    exfalso; apply hnd
    have : data.length - i = 0 := by omega
    rw [this]; exact Nat.dvd_zero len
  | succ fuel ih =>
    unfold toUnitsAux
    have hlt : i < data.length := by
      by_contra hc
      apply hnd
      have : data.length - i = 0 := by omega
      rw [this]; exact Nat.dvd_zero len
    rw [if_pos hlt]
    by_cases hb : i + len ≤ data.length
    · have hs : slice! data i (i + len) = .ok ((data.drop i).take (i + len - i)) :=
        slice!_eq_ok.mpr ⟨⟨by omega, hb⟩, rfl⟩
      rw [hs]
      simp only [bind_ok]
      rw [ih (i + len) (by omega) hb]
      · rfl
      · intro hd
        apply hnd
        have e : data.length - i = (data.length - (i + len)) + len := by omega
        rw [e]
        exact Nat.dvd_add hd (Nat.dvd_refl len)
    · have hs : slice! data i (i + len) = .error .index := by
        unfold slice!
        rw [if_neg (by omega)]
      rw [hs]
      rfl

theorem toUnits_error (data : Bytes) (len : Nat) (hlen : 0 < len) (hnd : ¬ len ∣ data.length) :
    toUnits data len = .error .index := by
  unfold toUnits
  rw [if_neg (by omega)]
  exact toUnitsAux_error data len hlen _ 0 (by omega) (by omega) (by simpa using hnd)

theorem forUp_append_take {α : Type} (l : List α) (f : Nat → List α → R (List α))
    (n : Nat) (hn : n ≤ l.length) (acc : List α)
    (hf : ∀ k (hk : k < n) (s : List α), f k s = .ok (s ++ [l[k]])) :
    forUp n f acc = .ok (acc ++ l.take n) := by
  induction n with
  | zero => simp
  | succ n ih =>
    rw [forUp_succ, ih (by omega) (fun k hk s => hf k (by omega) s), bind_ok, hf n (by omega)]
    rw [List.take_succ_eq_append_getElem (by omega)]
    simp

theorem comUnits_eq (us : List Bytes) : comUnits us = .ok us.flatten := by
  unfold comUnits
  have : ∀ n, n ≤ us.length → forUp n (fun i res => do
      let u ← at! us i
      pure (res ++ u)) ([] : Bytes) = .ok (us.take n).flatten := by
    intro n
    induction n with
    | zero => intro _; simp
    | succ n ih =>
      intro hn
      rw [forUp_succ, ih (by omega), bind_ok, at!_of_lt (by omega)]
      rw [List.take_succ_eq_append_getElem (by omega), List.flatten_append]
      simp only [bind_ok, pure_eq_ok, List.flatten_cons, List.flatten_nil, List.append_nil]
  simpa using this us.length (Nat.le_refl _)

/-! ### Modular addition and subtraction of byte strings -/

theorem modadd_spec {u h : Bytes} {p : Nat} (hp : 0 < p) (hfit : p ≤ 256 ^ u.length) :
    ∃ r, modadd u h (p : Int) = .ok r ∧ r.length = u.length ∧ leNat r = (leNat u + leNat h) % p := by
  have e : ((leNat u : Int) + (leNat h : Int)).tmod (p : Int) = (((leNat u + leNat h) % p : Nat) : Int) := by
    rw [← Int.natCast_add, Int.natCast_mod]
    exact (Int.ofNat_tmod _ _)
  have hlt : (leNat u + leNat h) % p < 256 ^ u.length := lt_of_lt_of_le (Nat.mod_lt _ hp) hfit
  have hlen := toLE_length hlt
  refine ⟨toLE ((leNat u + leNat h) % p) ++ zeros (u.length - (toLE ((leNat u + leNat h) % p)).length), ?_, ?_, ?_⟩
  · unfold modadd
    rw [if_neg (by omega)]
    simp only [e, Int.natAbs_natCast]
    rw [sub!_of_le hlen]
    rfl
  · simp; omega
  · simp

theorem modsub_spec {u h : Bytes} {p : Nat} (hp : 0 < p) (hfit : p ≤ 256 ^ u.length)
    (hh : leNat h ≤ leNat u + p) :
    ∃ r, modsub u h (p : Int) = .ok r ∧ r.length = u.length ∧
      leNat r = (leNat u + p - leNat h) % p := by
  have e : ((leNat u : Int) + (p : Int) - (leNat h : Int)).tmod (p : Int)
      = (((leNat u + p - leNat h) % p : Nat) : Int) := by
    have : ((leNat u : Int) + (p : Int) - (leNat h : Int)) = ((leNat u + p - leNat h : Nat) : Int) := by
      omega
    rw [this]
    exact (Int.ofNat_tmod _ _)
  have hlt : (leNat u + p - leNat h) % p < 256 ^ u.length := lt_of_lt_of_le (Nat.mod_lt _ hp) hfit
  have hlen := toLE_length hlt
  refine ⟨toLE ((leNat u + p - leNat h) % p) ++ zeros (u.length - (toLE ((leNat u + p - leNat h) % p)).length), ?_, ?_, ?_⟩
  · unfold modsub
    rw [if_neg (by omega)]
    simp only [e, Int.natAbs_natCast]
    rw [sub!_of_le hlen]
    rfl
  · simp; omega
  · simp

/-- Unmasking a masked unit. -/
theorem modsub_modadd {u h r r' : Bytes} {p : Nat} (hp : 0 < p) (hu : leNat u < p)
    (hh : leNat h ≤ p) (hr : modadd u h (p : Int) = .ok r) (hr' : r'.length = u.length)
    (hrr : leNat r' = leNat r) (hfit : p ≤ 256 ^ u.length) :
    modsub r' h (p : Int) = .ok u := by
  obtain ⟨q, hq, hql, hqv⟩ := modadd_spec (u := u) (h := h) hp hfit
  rw [hr] at hq
  cases hq
  obtain ⟨w, hw, hwl, hwv⟩ := modsub_spec (u := r') (h := h) hp (by rw [hr']; exact hfit)
    (by omega)
  rw [hw]
  congr 1
  apply leNat_inj
  · rw [hwl, hr']
  · rw [hwv, hrr, hqv]
    rcases Nat.lt_or_ge (leNat u + leNat h) p with hlt | hge
    · rw [Nat.mod_eq_of_lt hlt]
      have : leNat u + leNat h + p - leNat h = leNat u + p := by omega
      rw [this, Nat.add_mod_right, Nat.mod_eq_of_lt hu]
    · have h1 : (leNat u + leNat h) % p = leNat u + leNat h - p := by
        rw [Nat.mod_eq_sub_mod hge]
        apply Nat.mod_eq_of_lt
        omega
      rw [h1]
      have : leNat u + leNat h - p + p - leNat h = leNat u := by omega
      rw [this, Nat.mod_eq_of_lt hu]

end PoS
