import Mathlib.Data.Nat.Digits.Defs
import Verif.Properties.WorkflowStop

/-
C112: what `load_data` makes of an arbitrary file.
-/

namespace PoS

/-- A white-space byte: blank, tab, line feed, vertical tab, form feed, carriage return. -/
def IsSpace (b : UInt8) : Bool := b == 32 || (decide (9 ≤ b.toNat) && decide (b.toNat ≤ 13))

/-- A decimal digit. -/
def IsDigit (b : UInt8) : Prop := 48 ≤ b.toNat ∧ b.toNat ≤ 57

/-- The strings that denote a number: after removal of the white space an optional sign, a digit, then
digits and underscores; the value is that of the digits. -/
def Numeral (s : Bytes) (z : Int) : Prop :=
  ∃ (sign : Bytes) (d : UInt8) (tail : Bytes),
    s.filter (fun b => !IsSpace b) = sign ++ d :: tail ∧ IsDigit d ∧ (∀ c ∈ tail, IsDigit c ∨ c = 95) ∧
    ∃ n : Nat, n = Nat.ofDigits 10 (((d :: tail).filter (· ≠ 95)).reverse.map (fun c => c.toNat - 48)) ∧
      (((sign = [] ∨ sign = [43]) ∧ z = n) ∨ (sign = [45] ∧ z = -(n : Int)))

theorem intStep_space (st : Option Bool × Option Nat) (b : UInt8) (h : IsSpace b = true) :
    intStep st b = some st := by
  have h' : b = 32 ∨ (9 ≤ b.toNat ∧ b.toNat ≤ 13) := by
    simpa [IsSpace, Bool.or_eq_true, Bool.and_eq_true] using h
  have h1 : b.toNat ≤ 32 := by
    rcases h' with rfl | h'
    · decide
    · omega
  have n1 : b ≠ 43 := by rintro rfl; exact absurd h1 (by decide)
  have n2 : b ≠ 45 := by rintro rfl; exact absurd h1 (by decide)
  have n3 : b ≠ 95 := by rintro rfl; exact absurd h1 (by decide)
  unfold intStep
  rw [if_neg (fun h => n1 h.1), if_neg (fun h => n2 h.1), if_neg (fun h => n3 h.1), if_pos h']

theorem intStep_filter (s : Bytes) (st : Option Bool × Option Nat) :
    s.foldlM intStep st = (s.filter (fun b => !IsSpace b)).foldlM intStep st := by
  induction s generalizing st with
  | nil => rfl
  | cons b s ih =>
    rw [List.foldlM_cons]
    cases h : IsSpace b
    · rw [List.filter_cons_of_pos (by simp [h]), List.foldlM_cons]
      congr 1; funext st'; exact ih st'
    · rw [List.filter_cons_of_neg (by simp [h]), intStep_space st b h]
      exact ih st

/-- A byte that is no digit, no sign and no white space stops the parser, except `_` after a digit. -/
theorem intStep_bad (sg : Option Bool) (o : Option Nat) (b : UInt8) (hs : IsSpace b = false) (hd : ¬ IsDigit b)
    (hu : b = 95 → o = none) (hsign : (b = 43 ∨ b = 45) → sg ≠ none ∨ o ≠ none) : intStep (sg, o) b = none := by
  have h' : ¬ (b = 32 ∨ (9 ≤ b.toNat ∧ b.toNat ≤ 13)) := by
    intro h
    have : IsSpace b = true := by simpa [IsSpace, Bool.or_eq_true, Bool.and_eq_true] using h
    rw [hs] at this; cases this
  unfold intStep
  rw [if_neg (fun h => ?_), if_neg (fun h => ?_), if_neg (fun h => h.2 (hu h.1)), if_neg h',
    if_neg (show ¬ (48 ≤ b.toNat ∧ b.toNat ≤ 57) from hd)]
  · rcases hsign (Or.inr h.1) with h1 | h1
    · exact h1 h.2.1
    · exact h1 h.2.2
  · rcases hsign (Or.inl h.1) with h1 | h1
    · exact h1 h.2.1
    · exact h1 h.2.2

theorem intStep_tail (s : Bytes) (hs : ∀ b ∈ s, IsSpace b = false) (sg : Option Bool) (n : Nat)
    (r : Option Bool × Option Nat) :
    s.foldlM intStep (sg, some n) = some r ↔ (∀ c ∈ s, IsDigit c ∨ c = 95) ∧
      r = (sg, some ((s.filter (· ≠ 95)).foldl (fun a d => a * 10 + (d.toNat - 48)) n)) := by
  induction s generalizing n with
  | nil =>
    constructor
    · intro h
      injection h with h
      exact ⟨by simp, h.symm⟩
    · rintro ⟨-, rfl⟩; rfl
  | cons b s ih =>
    have ih := ih (fun c hc => hs c (by simp [hc]))
    rw [List.foldlM_cons]
    by_cases hb : b = 95
    · subst hb
      have e : intStep (sg, some n) 95 = some (sg, some n) := by
        unfold intStep
        simp
      rw [e]
      show s.foldlM intStep (sg, some n) = _ ↔ _
      rw [ih, List.filter_cons_of_neg (by simp)]
      simp
    · by_cases hd : IsDigit b
      · rw [intStep_digit sg (some n) b hd]
        show s.foldlM intStep (sg, some (n * 10 + (b.toNat - 48))) = _ ↔ _
        rw [ih, List.filter_cons_of_pos (by simpa using hb), List.foldl_cons]
        constructor
        · rintro ⟨h1, h2⟩
          refine ⟨fun c hc => ?_, h2⟩
          rcases List.mem_cons.mp hc with rfl | hc
          · exact Or.inl hd
          · exact h1 c hc
        · rintro ⟨h1, h2⟩
          exact ⟨fun c hc => h1 c (by simp [hc]), h2⟩
      · rw [intStep_bad sg (some n) b (hs b (by simp)) hd (fun h => absurd h hb) (fun _ => Or.inr (by simp))]
        constructor
        · intro h; cases h
        · rintro ⟨h1, -⟩
          rcases h1 b (by simp) with h | h
          · exact absurd h hd
          · exact absurd h hb

theorem foldl_ofDigits (s : Bytes) (n : Nat) :
    s.foldl (fun a d => a * 10 + (d.toNat - 48)) n =
      Nat.ofDigits 10 (s.reverse.map (fun c => c.toNat - 48)) + 10 ^ s.length * n := by
  induction s generalizing n with
  | nil => simp
  | cons b s ih =>
    rw [List.foldl_cons, ih, List.reverse_cons, List.map_append, Nat.ofDigits_append, List.length_map,
      List.length_reverse, List.length_cons]
    simp only [List.map_cons, List.map_nil, Nat.ofDigits_singleton]
    ring

/-- From a state without digits. -/
theorem intStep_head (s : Bytes) (hs : ∀ b ∈ s, IsSpace b = false) (sg sg' : Option Bool) (m : Nat)
    (hsg : sg = none → s.head? ≠ some 43 ∧ s.head? ≠ some 45) :
    s.foldlM intStep (sg, none) = some (sg', some m) ↔ sg' = sg ∧ ∃ d tail, s = d :: tail ∧ IsDigit d ∧
      (∀ c ∈ tail, IsDigit c ∨ c = 95) ∧
      m = Nat.ofDigits 10 (((d :: tail).filter (· ≠ 95)).reverse.map (fun c => c.toNat - 48)) := by
  cases s with
  | nil =>
    constructor
    · intro h; cases h
    · rintro ⟨-, d, tail, h, -⟩; cases h
  | cons b s =>
    rw [List.foldlM_cons]
    by_cases hd : IsDigit b
    · have hb : b ≠ 95 := by rintro rfl; exact absurd hd.2 (by decide)
      rw [intStep_digit sg none b hd]
      show s.foldlM intStep (sg, some (0 * 10 + (b.toNat - 48))) = _ ↔ _
      rw [intStep_tail s (fun c hc => hs c (by simp [hc]))]
      have e : (s.filter (· ≠ 95)).foldl (fun a d => a * 10 + (d.toNat - 48)) (0 * 10 + (b.toNat - 48)) =
          Nat.ofDigits 10 (((b :: s).filter (· ≠ 95)).reverse.map (fun c => c.toNat - 48)) := by
        rw [List.filter_cons_of_pos (by simpa using hb)]
        have := foldl_ofDigits (b :: s.filter (· ≠ 95)) 0
        rw [List.foldl_cons, Nat.mul_zero, Nat.add_zero] at this
        exact this
      rw [e]
      constructor
      · rintro ⟨h1, h2⟩
        injection h2 with h2 h3
        injection h3 with h3
        exact ⟨h2, b, s, rfl, hd, h1, h3⟩
      · rintro ⟨h2, d, tail, h, -, h1, h3⟩
        injection h with ha hb
        subst ha; subst hb
        exact ⟨h1, by rw [h2, h3]⟩
    · rw [intStep_bad sg none b (hs b (by simp)) hd (fun _ => rfl) (fun h => ?_)]
      · constructor
        · intro h; cases h
        · rintro ⟨-, d, tail, h, h1, -⟩
          injection h with ha hb
          subst ha
          exact absurd h1 hd
      · left
        intro hn
        have := hsg hn
        simp only [List.head?_cons] at this
        rcases h with rfl | rfl
        · exact this.1 rfl
        · exact this.2 rfl

/-! ### C112 -/

/-- The strings `Integer::from_str` accepts, and the numbers it returns for them. -/
theorem C112_numeral (s : Bytes) (z : Int) : intFromStr s = some z ↔ Numeral s z := by
  have hsp : ∀ b ∈ s.filter (fun b => !IsSpace b), IsSpace b = false := by
    intro b hb
    simpa using (List.mem_filter.mp hb).2
  have h0 : intFromStr s = some z ↔ ∃ sg m, (s.filter (fun b => !IsSpace b)).foldlM intStep (none, none) =
      some (sg, some m) ∧ z = if sg = some true then -(m : Int) else m := by
    unfold intFromStr
    rw [intStep_filter]
    cases h : (s.filter (fun b => !IsSpace b)).foldlM intStep (none, none) with
    | none => simp
    | some r =>
      obtain ⟨sg, o⟩ := r
      cases o with
      | none => simp
      | some m =>
        constructor
        · intro h'
          injection h' with h'
          exact ⟨sg, m, rfl, h'.symm⟩
        · rintro ⟨sg', m', h', rfl⟩
          injection h' with h'
          injection h' with h1 h2
          injection h2 with h2
          subst h1; subst h2; rfl
  rw [h0]
  unfold Numeral
  generalize s.filter (fun b => !IsSpace b) = t at hsp
  by_cases hsign : t.head? = some 43 ∨ t.head? = some 45
  · obtain ⟨b, t', rfl⟩ : ∃ b t', t = b :: t' := by
      cases t with
      | nil => simp at hsign
      | cons b t => exact ⟨b, t, rfl⟩
    have hb : b = 43 ∨ b = 45 := by simpa using hsign
    have hstep : intStep (none, none) b = some (some (decide (b = 45)), none) := by
      rcases hb with rfl | rfl <;> decide
    have hnd : ¬ IsDigit b := by
      rcases hb with rfl | rfl <;> (unfold IsDigit; decide)
    have hrun : ∀ sg m, (b :: t').foldlM intStep (none, none) = some (sg, some m) ↔
        t'.foldlM intStep (some (decide (b = 45)), none) = some (sg, some m) := by
      intro sg m
      rw [List.foldlM_cons, hstep]; rfl
    constructor
    · rintro ⟨sg, m, h, hz⟩
      rw [hrun, intStep_head t' (fun c hc => hsp c (by simp [hc])) _ _ _ (fun h => by cases h)] at h
      obtain ⟨rfl, d, tail, rfl, hd, ht, hm⟩ := h
      refine ⟨[b], d, tail, rfl, hd, ht, m, hm, ?_⟩
      rcases hb with rfl | rfl
      · exact Or.inl ⟨Or.inr rfl, by simpa using hz⟩
      · exact Or.inr ⟨rfl, by simpa using hz⟩
    · rintro ⟨sign, d, tail, ht, hd, htl, n, hn, hz⟩
      have hsb : sign = [b] ∧ t' = d :: tail := by
        rcases hz with ⟨rfl | rfl, -⟩ | ⟨rfl, -⟩
        · injection ht with h1 h2
          subst h1; exact absurd hd hnd
        · injection ht with h1 h2
          subst h1; exact ⟨rfl, h2⟩
        · injection ht with h1 h2
          subst h1; exact ⟨rfl, h2⟩
      obtain ⟨rfl, rfl⟩ := hsb
      refine ⟨some (decide (b = 45)), n, ?_, ?_⟩
      · rw [hrun, intStep_head _ (fun c hc => hsp c (by simp [hc])) _ _ _ (fun h => by cases h)]
        exact ⟨rfl, d, tail, rfl, hd, htl, hn⟩
      · rcases hz with ⟨h | h, hz⟩ | ⟨h, hz⟩
        · cases h
        · injection h with h _
          subst h; simpa using hz
        · injection h with h _
          subst h; simpa using hz
  · have hne : t.head? ≠ some 43 ∧ t.head? ≠ some 45 := ⟨fun h => hsign (Or.inl h), fun h => hsign (Or.inr h)⟩
    constructor
    · rintro ⟨sg, m, h, hz⟩
      rw [intStep_head t hsp _ _ _ (fun _ => hne)] at h
      obtain ⟨rfl, d, tail, rfl, hd, ht, hm⟩ := h
      exact ⟨[], d, tail, rfl, hd, ht, m, hm, Or.inl ⟨Or.inl rfl, by simpa using hz⟩⟩
    · rintro ⟨sign, d, tail, ht, hd, htl, n, hn, hz⟩
      rcases hz with ⟨rfl | rfl, hz⟩ | ⟨rfl, hz⟩
      · refine ⟨none, n, ?_, by simpa using hz⟩
        rw [intStep_head t hsp _ _ _ (fun _ => hne)]
        exact ⟨rfl, d, tail, ht, hd, htl, hn⟩
      · exact absurd (by rw [ht]; rfl) hne.1
      · exact absurd (by rw [ht]; rfl) hne.2

theorem u64LE_leNat (b : Bytes) (h : b.length = 8) : u64LE (leNat b) = b := by
  match b, h with
  | [b0, b1, b2, b3, b4, b5, b6, b7], _ =>
    have h0 := b0.toNat_lt; have h1 := b1.toNat_lt; have h2 := b2.toNat_lt; have h3 := b3.toNat_lt
    have h4 := b4.toNat_lt; have h5 := b5.toNat_lt; have h6 := b6.toNat_lt; have h7 := b7.toNat_lt
    have key : ∀ (x : Nat) (c : UInt8), x = c.toNat → UInt8.ofNat x = c := by
      rintro x c rfl; simp
    simp only [u64LE, List.range, List.range.loop, List.map_cons, List.map_nil, leNat]
    refine List.cons_eq_cons.mpr ⟨key _ _ (by omega), List.cons_eq_cons.mpr ⟨key _ _ (by omega),
      List.cons_eq_cons.mpr ⟨key _ _ (by omega), List.cons_eq_cons.mpr ⟨key _ _ (by omega),
      List.cons_eq_cons.mpr ⟨key _ _ (by omega), List.cons_eq_cons.mpr ⟨key _ _ (by omega),
      List.cons_eq_cons.mpr ⟨key _ _ (by omega), List.cons_eq_cons.mpr ⟨key _ _ (by omega), rfl⟩⟩⟩⟩⟩⟩⟩⟩

theorem readField_iff (b s rest : Bytes) :
    readField b = some (s, rest) ↔ s.length < 2 ^ 64 ∧ b = u64LE s.length ++ s ++ rest := by
  constructor
  · intro h
    unfold readField at h
    by_cases h8 : b.length < 8
    · rw [if_pos h8] at h; cases h
    rw [if_neg h8] at h
    simp only [] at h
    by_cases hl : (b.drop 8).length < leNat (b.take 8)
    · rw [if_pos hl] at h; cases h
    rw [if_neg hl] at h
    injection h with h
    injection h with h1 h2
    have ht : (b.take 8).length = 8 := by rw [List.length_take]; omega
    have hs : s.length = leNat (b.take 8) := by
      rw [← h1, List.length_take]; omega
    refine ⟨?_, ?_⟩
    · have := leNat_lt (b.take 8)
      rw [ht] at this
      rw [hs]; exact lt_of_lt_of_eq this (by norm_num)
    · rw [hs, u64LE_leNat _ ht, ← h1, ← h2, List.append_assoc, List.take_append_drop, List.take_append_drop]
  · rintro ⟨h, rfl⟩
    exact readField_append s rest h

/-- `load_data` returns a key and an initial vector exactly if the file begins with two fields, each
preceded by its length in eight bytes, the first being a string that denotes the key and the second the
initial vector.  What follows is not looked at. -/
theorem C112_load_iff (file : Bytes) (key : Int) (iv : Bytes) :
    loadData file = .ok (key, iv) ↔ ∃ s rest : Bytes, s.length < 2 ^ 64 ∧ iv.length < 2 ^ 64 ∧ Numeral s key ∧
      file = u64LE s.length ++ s ++ (u64LE iv.length ++ iv ++ rest) := by
  unfold loadData
  constructor
  · intro h
    cases h1 : readField file with
    | none => rw [h1] at h; cases h
    | some r =>
      obtain ⟨s, r1⟩ := r
      rw [h1] at h
      simp only [] at h
      cases h2 : readField r1 with
      | none => rw [h2] at h; cases h
      | some r =>
        obtain ⟨iv', rest⟩ := r
        rw [h2] at h
        simp only [] at h
        cases h3 : intFromStr s with
        | none => rw [h3] at h; cases h
        | some z =>
          rw [h3] at h
          injection h with h
          injection h with hz hiv
          subst hz; subst hiv
          rw [readField_iff] at h1 h2
          refine ⟨s, rest, h1.1, h2.1, (C112_numeral _ _).mp h3, ?_⟩
          rw [h1.2, h2.2]
  · rintro ⟨s, rest, hs, hi, hn, rfl⟩
    rw [readField_append _ _ hs]
    simp only []
    rw [readField_append _ _ hi]
    simp only [(C112_numeral _ _).mpr hn]

/-- Every other file makes it panic, at an `unwrap`. -/
theorem C112_panics (file : Bytes)
    (h : ¬ ∃ (s iv rest : Bytes) (key : Int), s.length < 2 ^ 64 ∧ iv.length < 2 ^ 64 ∧ Numeral s key ∧
      file = u64LE s.length ++ s ++ (u64LE iv.length ++ iv ++ rest)) :
    loadData file = .error .unwrap := by
  have he : ∀ e, loadData file = .error e → e = .unwrap := by
    intro e he
    unfold loadData at he
    cases h1 : readField file with
    | none => rw [h1] at he; injection he with he; exact he.symm
    | some r =>
      obtain ⟨s, r1⟩ := r
      rw [h1] at he
      simp only [] at he
      cases h2 : readField r1 with
      | none => rw [h2] at he; injection he with he; exact he.symm
      | some r =>
        obtain ⟨iv', rest⟩ := r
        rw [h2] at he
        simp only [] at he
        cases h3 : intFromStr s with
        | none => rw [h3] at he; injection he with he; exact he.symm
        | some z => rw [h3] at he; cases he
  cases hl : loadData file with
  | error e => rw [he e hl]
  | ok r =>
    obtain ⟨key, iv⟩ := r
    obtain ⟨s, rest, hs, hi, hn, hf⟩ := (C112_load_iff file key iv).mp hl
    exact absurd ⟨s, iv, rest, key, hs, hi, hn, hf⟩ h

/-- The record decides what a file holds: two files with the same first bytes, up to the end of the
record of one of them, load to the same. -/
theorem C112_suffix (file tail : Bytes) (r : Int × Bytes) (h : loadData file = .ok r) :
    loadData (file ++ tail) = .ok r := by
  obtain ⟨key, iv⟩ := r
  rw [C112_load_iff] at h ⊢
  obtain ⟨s, rest, hs, hi, hn, rfl⟩ := h
  exact ⟨s, rest ++ tail, hs, hi, hn, by simp only [List.append_assoc]⟩

theorem foldl_digits_inj (a b : Bytes) (hl : a.length = b.length) (ha : ∀ c ∈ a, IsDigit c) (hb : ∀ c ∈ b, IsDigit c)
    (h : a.foldl (fun a d => a * 10 + (d.toNat - 48)) 0 = b.foldl (fun a d => a * 10 + (d.toNat - 48)) 0) : a = b := by
  have key : ∀ (a b : Bytes) (n m : Nat), a.length = b.length → (∀ c ∈ a, IsDigit c) → (∀ c ∈ b, IsDigit c) →
      a.foldl (fun a d => a * 10 + (d.toNat - 48)) n = b.foldl (fun a d => a * 10 + (d.toNat - 48)) m →
      a = b ∧ n = m := by
    intro a
    induction a with
    | nil =>
      intro b n m hl _ _ h
      cases b with
      | nil => exact ⟨rfl, h⟩
      | cons _ _ => simp at hl
    | cons c a ih =>
      intro b n m hl ha hb h
      cases b with
      | nil => simp at hl
      | cons d b =>
        rw [List.foldl_cons, List.foldl_cons] at h
        obtain ⟨rfl, h2⟩ := ih b _ _ (by simpa using hl) (fun c hc => ha c (by simp [hc]))
          (fun c hc => hb c (by simp [hc])) h
        have h3 := ha c (by simp)
        have h4 := hb d (by simp)
        unfold IsDigit at h3 h4
        have h5 : c.toNat = d.toNat := by omega
        exact ⟨by rw [UInt8.toNat_inj.mp h5], by omega⟩
  exact (key a b 0 0 hl ha hb h).1

theorem intFromStr_digits (neg : Bool) (ds : Bytes) (hne : ds ≠ []) (h : ∀ c ∈ ds, IsDigit c) :
    intFromStr ((if neg = true then [45] else []) ++ ds) =
      some (if neg = true then -((ds.foldl (fun a d => a * 10 + (d.toNat - 48)) 0 : Nat) : Int)
        else ((ds.foldl (fun a d => a * 10 + (d.toNat - 48)) 0 : Nat) : Int)) := by
  unfold intFromStr
  cases neg
  · simp only [Bool.false_eq_true, if_false, List.nil_append]
    rw [intStep_digits ds none none hne h]
    rfl
  · simp only [if_true, List.cons_append, List.nil_append, List.foldlM_cons]
    have : intStep (none, none) 45 = some (some true, none) := by decide
    rw [this]
    show (match ds.foldlM intStep (some true, none) with
      | some (sign, some n) => some (if sign = some true then -(n : Int) else n)
      | _ => none) = _
    rw [intStep_digits ds (some true) none hne h]
    rfl

theorem saveData_eq (old : Bytes) (key : Int) (iv : Bytes) :
    saveData old key iv = u64LE (intToString key).length ++ intToString key ++
      (u64LE iv.length ++ iv ++ old.drop (pubDataBytes key iv).length) := by
  unfold saveData writeAt
  simp only [List.take_zero, Nat.zero_sub, Nat.zero_add]
  show [] ++ zeros 0 ++ pubDataBytes key iv ++ _ = _
  unfold pubDataBytes zeros
  simp [List.append_assoc]

theorem set_middle (A m C : Bytes) (k i : Nat) (b : UInt8) (hk : k = A.length + i) (hi : i < m.length) :
    (A ++ (m ++ C)).set k b = A ++ (m.set i b ++ C) := by
  subst hk
  rw [List.set_append_right _ _ (by omega), Nat.add_sub_cancel_left, List.set_append_left _ _ hi]

/-- There is no check of integrity: a changed byte of the initial vector is not noticed, and a digit of
the key changed to another digit gives another key. -/
theorem C112_unnoticed (old : Bytes) (key : Int) (iv : Bytes) (hk : (intToString key).length < 2 ^ 64)
    (hi : iv.length < 2 ^ 64) :
    (∀ (i : Nat) (b : UInt8), i < iv.length →
      loadData ((saveData old key iv).set ((intToString key).length + 16 + i) b) = .ok (key, iv.set i b)) ∧
    ∀ (i : Nat) (b : UInt8), i < (intToString key).length → IsDigit b → (intToString key)[i]? ≠ some b →
      (intToString key)[i]? ≠ some 45 →
      ∃ key', key' ≠ key ∧ loadData ((saveData old key iv).set (8 + i) b) = .ok (key', iv) := by
  have hload : ∀ (s iv rest : Bytes) (z : Int), s.length < 2 ^ 64 → iv.length < 2 ^ 64 → intFromStr s = some z →
      loadData (u64LE s.length ++ s ++ (u64LE iv.length ++ iv ++ rest)) = .ok (z, iv) := by
    intro s iv rest z hs hi hn
    exact (C112_load_iff _ _ _).mpr ⟨s, rest, hs, hi, (C112_numeral _ _).mp hn, rfl⟩
  refine ⟨fun i b hib => ?_, fun i b hib hb hne hsign => ?_⟩
  · have := hload (intToString key) (iv.set i b) (old.drop (pubDataBytes key iv).length) key hk
      (by rw [List.length_set]; exact hi) (intFromStr_toString key)
    have e : ∀ m : Bytes, u64LE (intToString key).length ++ intToString key ++
        (u64LE iv.length ++ m ++ old.drop (pubDataBytes key iv).length) =
        (u64LE (intToString key).length ++ intToString key ++ u64LE iv.length) ++
          (m ++ old.drop (pubDataBytes key iv).length) := by
      intro m; simp only [List.append_assoc]
    rw [List.length_set] at this
    rw [← this, saveData_eq, e, e]
    rw [set_middle _ _ _ _ i b _ hib]
    simp only [List.length_append, u64LE_length]; omega
  · obtain ⟨ds, hds, hne', hstr⟩ : ∃ ds : Bytes, (∀ c ∈ ds, IsDigit c) ∧ ds ≠ [] ∧
        intToString key = (if decide (key < 0) = true then [45] else []) ++ ds :=
      ⟨(decLE (key.natAbs + 1) key.natAbs).reverse, fun c hc => decLE_digits _ _ c (by simpa using hc),
        by simp [decLE], by unfold intToString; simp⟩
    have hkey := intFromStr_toString key
    rw [hstr, intFromStr_digits _ _ hne' hds] at hkey
    -- the digit that is changed
    obtain ⟨j, hj, hset⟩ : ∃ j, j < ds.length ∧ ds[j]? ≠ some b ∧ (intToString key).set i b =
        (if decide (key < 0) = true then [45] else []) ++ ds.set j b := by
      rw [hstr] at hne hsign hib ⊢
      cases hn : decide (key < 0)
      · simp only [hn, Bool.false_eq_true, if_false, List.nil_append] at hne hib ⊢
        exact ⟨i, hib, hne, rfl⟩
      · simp only [hn, if_true, List.cons_append, List.nil_append] at hne hsign hib ⊢
        cases i with
        | zero => exact absurd rfl hsign
        | succ j => exact ⟨j, by simpa using hib, by simpa using hne, rfl⟩
    have hds' : ∀ c ∈ ds.set j b, IsDigit c := by
      intro c hc
      rcases List.mem_or_eq_of_mem_set hc with hc | rfl
      · exact hds c hc
      · exact hb
    have hnew := intFromStr_digits (decide (key < 0)) (ds.set j b) (by
      intro h; exact hne' (by simpa using congrArg List.length h)) hds'
    refine ⟨if decide (key < 0) = true then
      -(((ds.set j b).foldl (fun a d => a * 10 + (d.toNat - 48)) 0 : Nat) : Int)
      else (((ds.set j b).foldl (fun a d => a * 10 + (d.toNat - 48)) 0 : Nat) : Int), ?_, ?_⟩
    rotate_left
    · have := hload ((intToString key).set i b) iv (old.drop (pubDataBytes key iv).length) _
        (by rw [List.length_set]; exact hk) hi (by rw [hset.2]; exact hnew)
      have e : ∀ m : Bytes, u64LE (intToString key).length ++ m ++
          (u64LE iv.length ++ iv ++ old.drop (pubDataBytes key iv).length) =
          u64LE (intToString key).length ++
            (m ++ (u64LE iv.length ++ iv ++ old.drop (pubDataBytes key iv).length)) := by
        intro m; simp only [List.append_assoc]
      rw [List.length_set] at this
      rw [← this, saveData_eq, e, e]
      rw [set_middle _ _ _ _ i b _ hib]
      simp only [u64LE_length]
    · intro h
      injection hkey with hkey
      rw [← h] at hkey
      have hv : ds.foldl (fun a d => a * 10 + (d.toNat - 48)) 0 =
          (ds.set j b).foldl (fun a d => a * 10 + (d.toNat - 48)) 0 := by
        cases hn : decide (key < 0)
        · simp only [hn, Bool.false_eq_true, if_false] at hkey; omega
        · simp only [hn, if_true] at hkey; omega
      have := foldl_digits_inj _ _ (by simp) hds hds' hv
      apply hset.1
      rw [this, List.getElem?_set_self hj]

/-- The file is not determined by what it loads to: a plus sign before the key makes no difference. -/
theorem C112_not_unique (key : Int) (hk0 : 0 ≤ key) (iv : Bytes) (hk : (intToString key).length + 1 < 2 ^ 64)
    (hi : iv.length < 2 ^ 64) :
    ∃ file, file ≠ pubDataBytes key iv ∧ file.length = (pubDataBytes key iv).length + 1 ∧
      loadData file = .ok (key, iv) ∧ loadData (pubDataBytes key iv) = .ok (key, iv) := by
  have hz : ¬ key < 0 := by omega
  have hp : intFromStr (43 :: intToString key) = some key := by
    unfold intFromStr
    rw [List.foldlM_cons]
    have : intStep (none, none) 43 = some (some false, none) := by decide
    rw [this]
    show (match (intToString key).foldlM intStep (some false, none) with
      | some (sign, some n) => some (if sign = some true then -(n : Int) else n)
      | _ => none) = _
    unfold intToString
    rw [if_neg hz, List.nil_append, decLE_foldlM]
    show some (key.natAbs : Int) = _
    congr 1; omega
  have hlen : (u64LE (43 :: intToString key).length ++ (43 :: intToString key) ++ (u64LE iv.length ++ iv ++ [])).length =
      (pubDataBytes key iv).length + 1 := by
    unfold pubDataBytes
    simp [u64LE_length]
    omega
  refine ⟨u64LE (43 :: intToString key).length ++ (43 :: intToString key) ++ (u64LE iv.length ++ iv ++ []), ?_, hlen, ?_, ?_⟩
  · intro h
    rw [h] at hlen; omega
  · exact (C112_load_iff _ _ _).mpr ⟨_, [], by simpa using hk, hi, (C112_numeral _ _).mp hp, rfl⟩
  · exact (C112_load_iff _ _ _).mpr ⟨_, [], by omega, hi, (C112_numeral _ _).mp (intFromStr_toString key), by
      unfold pubDataBytes; simp⟩

/-- Files that load and files that do not: blanks, a sign and separators; a separator before the first
digit; a length beyond the end of the file. -/
example : loadData ([5, 0, 0, 0, 0, 0, 0, 0] ++ [32, 45, 49, 95, 50] ++ [1, 0, 0, 0, 0, 0, 0, 0, 7] ++ [9, 9]) =
    .ok (-12, [7]) ∧
    loadData ([2, 0, 0, 0, 0, 0, 0, 0] ++ [95, 50] ++ [1, 0, 0, 0, 0, 0, 0, 0, 7]) = .error .unwrap ∧
    loadData ([1, 0, 0, 0, 0, 0, 0, 0] ++ [50] ++ [2, 0, 0, 0, 0, 0, 0, 0, 7]) = .error .unwrap := by
  decide +kernel

end PoS
