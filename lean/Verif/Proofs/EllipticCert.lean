import Mathlib.AlgebraicGeometry.EllipticCurve.Affine.Point
import Mathlib.GroupTheory.OrderOfElement
import Mathlib.Algebra.Field.ZMod
import Mathlib.Tactic.FieldSimp
import Mathlib.Tactic.LinearCombination

/-
Primality certificates of Goldwasser–Kilian / Atkin–Morain form: a point on a cubic modulo N whose
order is a prime above 2·√N + 1.  The checker is meant to be evaluated by the kernel.  Soundness
needs neither Hasse's bound nor a non-zero discriminant: over a field with q elements the cubic has
at most 2q + 1 non-singular points.
-/

set_option linter.unusedSectionVars false

namespace PoS

/-- Evaluate `n` before going on. -/
def force {β : Type} (n : Nat) (k : Nat → β) : β :=
  match n with
  | 0 => k 0
  | m + 1 => k (m + 1)

theorem force_eq {β : Type} (n : Nat) (k : Nat → β) : force n k = k n := by
  cases n <;> rfl

/-- Doubling on `y² = x³ + a·x + b` modulo `N`, Jacobian coordinates. -/
def jdbl (N a X Y Z : Nat) (k : Nat → Nat → Nat → Bool) : Bool :=
  force (Y * Y % N) fun yy =>
  force (4 * X * yy % N) fun s =>
  force (Z * Z % N) fun zz =>
  force ((3 * (X * X) + a * (zz * zz)) % N) fun m =>
  force ((m * m + 2 * (N - s)) % N) fun x3 =>
  force (yy * yy % N) fun y4 =>
  force ((m * (s + (N - x3)) + 8 * (N - y4)) % N) fun y3 =>
  force (2 * Y * Z % N) fun z3 => k x3 y3 z3

/-- Addition of the affine point `(x, y)`, Jacobian coordinates. -/
def jadd (N x y X Y Z : Nat) (k : Nat → Nat → Nat → Bool) : Bool :=
  force (Z * Z % N) fun zz =>
  force ((x * zz + (N - X % N)) % N) fun h =>
  force ((y * (zz * Z % N) + (N - Y % N)) % N) fun r =>
  force (h * h % N) fun hh =>
  force (hh * h % N) fun hhh =>
  force (X * hh % N) fun v =>
  force ((r * r + (N - hhh) + 2 * (N - v)) % N) fun x3 =>
  force (Y * hhh % N) fun w =>
  force ((r * (v + (N - x3)) + (N - w)) % N) fun y3 =>
  force (Z * h % N) fun z3 => k x3 y3 z3

/-- The last comparison: the point reached is the inverse of the base point. -/
def jfin (N x y X Y Z : Nat) : Bool :=
  Nat.gcd Z N == 1 && (X + (N - x * (Z * Z % N) % N)) % N == 0 &&
    (Y + y * (Z * Z % N * Z % N)) % N == 0

/-- Double and add over the lowest `i` bits of `e`. -/
def lad (N a x y e : Nat) : Nat → Nat → Nat → Nat → Bool
  | 0, X, Y, Z => jfin N x y X Y Z
  | i + 1, X, Y, Z =>
    jdbl N a X Y Z fun X' Y' Z' =>
      match e >>> i % 2 with
      | 0 => lad N a x y e i X' Y' Z'
      | _ + 1 => jadd N x y X' Y' Z' fun X2 Y2 Z2 => lad N a x y e i X2 Y2 Z2

/-- One certificate: `(x, y)` on a cubic with linear coefficient `a` has order `r` modulo `N`. -/
def ecppCheck (i N a x y r : Nat) : Bool :=
  decide (1 < N) && decide (4 * N < (r - 1) * (r - 1)) && (r - 1) >>> (i + 1) == 1 &&
    lad N a x y (r - 1) (i + 1) x y 1

section
variable {F : Type} [Field F] [DecidableEq F]

open WeierstrassCurve

/-- The cubic `y² = x³ + a·x + b` over a field. -/
def cubic (a b : F) : WeierstrassCurve.Affine (F) := ⟨0, 0, 0, a, b⟩

/-- `(X : Y : Z)` are Jacobian coordinates of the point `Q`. -/
def Rep {a b : F} (X Y Z : F) (Q : (cubic a b).Point) : Prop :=
  Z ≠ 0 ∧ ∃ h, Q = Affine.Point.some (X / Z ^ 2) (Y / Z ^ 3) h

theorem rep_dbl {a b X Y Z : F} {Q : (cubic a b).Point} (hZ : 2 * Y * Z ≠ 0)
    (h : Rep X Y Z Q) :
    Rep ((3 * X ^ 2 + a * Z ^ 4) ^ 2 - 2 * (4 * X * Y ^ 2))
      ((3 * X ^ 2 + a * Z ^ 4) *
        (4 * X * Y ^ 2 - ((3 * X ^ 2 + a * Z ^ 4) ^ 2 - 2 * (4 * X * Y ^ 2))) - 8 * Y ^ 4)
      (2 * Y * Z) (Q + Q) := by
  obtain ⟨hz, hns, rfl⟩ := h
  have h2 : (2 : F) ≠ 0 := by rintro h; simp [h] at hZ
  have hy : Y ≠ 0 := by rintro rfl; simp at hZ
  have hne : Y / Z ^ 3 ≠ (cubic a b).negY (X / Z ^ 2) (Y / Z ^ 3) := by
    simp only [Affine.negY, cubic]
    intro h
    have h3 : 2 * (Y / Z ^ 3) = 0 := by linear_combination h
    rcases mul_eq_zero.mp h3 with h | h
    · exact h2 h
    · rcases div_eq_zero_iff.mp h with h | h
      · exact hy h
      · exact hz (pow_eq_zero_iff (by norm_num) |>.mp h)
  refine ⟨hZ, ?_⟩
  rw [Affine.Point.add_self_of_Y_ne hne]
  have ex : (cubic a b).addX (X / Z ^ 2) (X / Z ^ 2)
      ((cubic a b).slope (X / Z ^ 2) (X / Z ^ 2) (Y / Z ^ 3) (Y / Z ^ 3)) =
      ((3 * X ^ 2 + a * Z ^ 4) ^ 2 - 2 * (4 * X * Y ^ 2)) / (2 * Y * Z) ^ 2 := by
    rw [Affine.slope_of_Y_ne rfl hne]
    simp only [Affine.addX, Affine.negY, cubic]
    have : Y / Z ^ 3 - (-(Y / Z ^ 3) - 0 * (X / Z ^ 2) - 0) = 2 * Y / Z ^ 3 := by ring
    rw [this]
    field_simp
    ring
  have ey : (cubic a b).addY (X / Z ^ 2) (X / Z ^ 2) (Y / Z ^ 3)
      ((cubic a b).slope (X / Z ^ 2) (X / Z ^ 2) (Y / Z ^ 3) (Y / Z ^ 3)) =
      ((3 * X ^ 2 + a * Z ^ 4) *
        (4 * X * Y ^ 2 - ((3 * X ^ 2 + a * Z ^ 4) ^ 2 - 2 * (4 * X * Y ^ 2))) - 8 * Y ^ 4) /
        (2 * Y * Z) ^ 3 := by
    simp only [Affine.addY, Affine.negAddY]
    rw [ex]
    rw [Affine.slope_of_Y_ne rfl hne]
    simp only [Affine.negY, cubic]
    have : Y / Z ^ 3 - (-(Y / Z ^ 3) - 0 * (X / Z ^ 2) - 0) = 2 * Y / Z ^ 3 := by ring
    rw [this]
    field_simp
    ring
  simp only [ex, ey]
  exact ⟨ex ▸ ey ▸ Affine.nonsingular_add hns hns fun h => hne h.2, trivial⟩

theorem rep_add {a b X Y Z x y : F} {Q : (cubic a b).Point}
    (hP : (cubic a b).Nonsingular x y) (hZ : Z * (x * Z ^ 2 - X) ≠ 0) (h : Rep X Y Z Q) :
    Rep ((y * Z ^ 3 - Y) ^ 2 - (x * Z ^ 2 - X) ^ 3 - 2 * (X * (x * Z ^ 2 - X) ^ 2))
      ((y * Z ^ 3 - Y) * (X * (x * Z ^ 2 - X) ^ 2 -
        ((y * Z ^ 3 - Y) ^ 2 - (x * Z ^ 2 - X) ^ 3 - 2 * (X * (x * Z ^ 2 - X) ^ 2))) -
        Y * (x * Z ^ 2 - X) ^ 3)
      (Z * (x * Z ^ 2 - X)) (Q + Affine.Point.some x y hP) := by
  obtain ⟨hz, hns, rfl⟩ := h
  obtain ⟨H, hH⟩ : ∃ H, H = x * Z ^ 2 - X := ⟨_, rfl⟩
  obtain rfl : X = x * Z ^ 2 - H := by rw [hH]; ring
  simp only [sub_sub_cancel] at hZ ⊢
  have hh : H ≠ 0 := fun h => hZ (by rw [h, mul_zero])
  have hne : (x * Z ^ 2 - H) / Z ^ 2 ≠ x := by
    intro h
    rw [div_eq_iff (pow_ne_zero _ hz)] at h
    apply hh
    linear_combination -h
  have hd : (x * Z ^ 2 - H) / Z ^ 2 - x = -H / Z ^ 2 := by field_simp; ring
  refine ⟨hZ, ?_⟩
  rw [Affine.Point.add_of_X_ne hne]
  have ex : (cubic a b).addX ((x * Z ^ 2 - H) / Z ^ 2) x ((cubic a b).slope ((x * Z ^ 2 - H) / Z ^ 2) x (Y / Z ^ 3) y) =
      ((y * Z ^ 3 - Y) ^ 2 - H ^ 3 - 2 * ((x * Z ^ 2 - H) * H ^ 2)) /
        (Z * H) ^ 2 := by
    rw [Affine.slope_of_X_ne hne, hd]
    simp only [Affine.addX, cubic]
    field_simp
    ring
  have ey : (cubic a b).addY ((x * Z ^ 2 - H) / Z ^ 2) x (Y / Z ^ 3)
      ((cubic a b).slope ((x * Z ^ 2 - H) / Z ^ 2) x (Y / Z ^ 3) y) =
      ((y * Z ^ 3 - Y) * ((x * Z ^ 2 - H) * H ^ 2 -
        ((y * Z ^ 3 - Y) ^ 2 - H ^ 3 - 2 * ((x * Z ^ 2 - H) * H ^ 2))) -
        Y * H ^ 3) / (Z * H) ^ 3 := by
    simp only [Affine.addY, Affine.negAddY]
    rw [ex, Affine.slope_of_X_ne hne, hd]
    simp only [Affine.negY, cubic]
    field_simp
    ring
  simp only [ex, ey]
  exact ⟨ex ▸ ey ▸ Affine.nonsingular_add hns hP fun h => hne h.1, trivial⟩

theorem cast_mod {N : Nat} (hz : (N : F) = 0) (m : Nat) : ((m % N : Nat) : F) = m := by
  conv_rhs => rw [← Nat.mod_add_div m N]
  push_cast
  rw [hz]
  ring

theorem cast_sub_mod {N : Nat} (hz : (N : F) = 0) (hN : 0 < N) (m : Nat) :
    ((N - m % N : Nat) : F) = -(m : F) := by
  rw [Nat.cast_sub (Nat.mod_lt _ hN).le, cast_mod hz, hz, zero_sub]

theorem jdbl_spec {N a X Y Z : Nat} (hz : (N : F) = 0) (hN : 0 < N)
    {k : Nat → Nat → Nat → Bool} (h : jdbl N a X Y Z k = true) :
    ∃ X' Y' Z', k X' Y' Z' = true ∧
      (X' : F) = (3 * (X : F) ^ 2 + a * (Z : F) ^ 4) ^ 2 - 2 * (4 * X * (Y : F) ^ 2) ∧
      (Y' : F) = (3 * (X : F) ^ 2 + a * (Z : F) ^ 4) *
        (4 * X * (Y : F) ^ 2 - ((3 * (X : F) ^ 2 + a * (Z : F) ^ 4) ^ 2 -
          2 * (4 * X * (Y : F) ^ 2))) - 8 * (Y : F) ^ 4 ∧
      (Z' : F) = 2 * Y * Z := by
  simp only [jdbl, force_eq] at h
  refine ⟨_, _, _, h, ?_, ?_, ?_⟩
  · simp only [cast_mod hz, cast_sub_mod hz hN, Nat.cast_add, Nat.cast_mul, Nat.cast_ofNat]
    ring
  · simp only [cast_mod hz, cast_sub_mod hz hN, Nat.cast_add, Nat.cast_mul, Nat.cast_ofNat]
    ring
  · simp only [cast_mod hz, Nat.cast_mul, Nat.cast_ofNat]

theorem jadd_spec {N x y X Y Z : Nat} (hz : (N : F) = 0) (hN : 0 < N)
    {k : Nat → Nat → Nat → Bool} (h : jadd N x y X Y Z k = true) :
    ∃ X' Y' Z', k X' Y' Z' = true ∧
      (X' : F) = ((y : F) * (Z : F) ^ 3 - Y) ^ 2 - ((x : F) * (Z : F) ^ 2 - X) ^ 3 -
        2 * (X * ((x : F) * (Z : F) ^ 2 - X) ^ 2) ∧
      (Y' : F) = ((y : F) * (Z : F) ^ 3 - Y) * (X * ((x : F) * (Z : F) ^ 2 - X) ^ 2 -
        (((y : F) * (Z : F) ^ 3 - Y) ^ 2 - ((x : F) * (Z : F) ^ 2 - X) ^ 3 -
        2 * (X * ((x : F) * (Z : F) ^ 2 - X) ^ 2))) - Y * ((x : F) * (Z : F) ^ 2 - X) ^ 3 ∧
      (Z' : F) = Z * ((x : F) * (Z : F) ^ 2 - X) := by
  simp only [jadd, force_eq] at h
  refine ⟨_, _, _, h, ?_, ?_, ?_⟩
  · simp only [cast_mod hz, cast_sub_mod hz hN, Nat.cast_add, Nat.cast_mul, Nat.cast_ofNat]
    ring
  · simp only [cast_mod hz, cast_sub_mod hz hN, Nat.cast_add, Nat.cast_mul, Nat.cast_ofNat]
    ring
  · simp only [cast_mod hz, cast_sub_mod hz hN, Nat.cast_add, Nat.cast_mul]
    ring

theorem lad_sound {N a x y e : Nat} (hz : (N : F) = 0) (hN : 0 < N) {b : F}
    (i X Y Z : Nat) (h : lad N a x y e i X Y Z = true) :
    ∃ X' Y' Z', jfin N x y X' Y' Z' = true ∧ ((Z' : F) ≠ 0 →
      (Z : F) ≠ 0 ∧ (0 < i → 2 * (Y : F) * Z ≠ 0) ∧
      ∀ (hP : (cubic (a : F) b).Nonsingular (x : F) (y : F)) Q, Rep (X : F) Y Z Q →
        Rep (X' : F) Y' Z' (2 ^ i • Q + (e % 2 ^ i) • Affine.Point.some _ _ hP)) := by
  induction i generalizing X Y Z with
  | zero =>
    refine ⟨X, Y, Z, h, fun h0 => ⟨h0, by simp, fun hP Q hQ => ?_⟩⟩
    simpa [Nat.mod_one] using hQ
  | succ i ih =>
    unfold lad at h
    obtain ⟨X1, Y1, Z1, h1, eX, eY, eZ⟩ := jdbl_spec hz hN h
    have hbit : e % 2 ^ (i + 1) = 2 ^ i * (e >>> i % 2) + e % 2 ^ i := by
      rw [Nat.mod_pow_succ, Nat.shiftRight_eq_div_pow, add_comm]
    split at h1
    · next h0 =>
      obtain ⟨X', Y', Z', hf, hs⟩ := ih X1 Y1 Z1 h1
      refine ⟨X', Y', Z', hf, fun hne => ?_⟩
      obtain ⟨g1, -, g3⟩ := hs hne
      rw [eZ] at g1
      refine ⟨fun h => g1 (by rw [h, mul_zero]), fun _ => g1, fun hP Q hQ => ?_⟩
      have := g3 hP (Q + Q) (by rw [eX, eY, eZ]; exact rep_dbl g1 hQ)
      rw [hbit, h0, mul_zero, zero_add, pow_succ, mul_smul, two_smul]
      exact this
    · next m h0 =>
      have hm : e >>> i % 2 = 1 := by
        have := Nat.mod_lt (e >>> i) (by norm_num : 0 < 2)
        omega
      obtain ⟨X2, Y2, Z2, h2, fX, fY, fZ⟩ := jadd_spec hz hN h1
      obtain ⟨X', Y', Z', hf, hs⟩ := ih X2 Y2 Z2 h2
      refine ⟨X', Y', Z', hf, fun hne => ?_⟩
      obtain ⟨g1, -, g3⟩ := hs hne
      rw [fZ] at g1
      have g2 : (2 * (Y : F) * Z) ≠ 0 := by
        rw [← eZ]
        exact fun h => g1 (by rw [h, zero_mul])
      refine ⟨fun h => g2 (by rw [h, mul_zero]), fun _ => g2, fun hP Q hQ => ?_⟩
      have hd : Rep (X1 : F) Y1 Z1 (Q + Q) := by rw [eX, eY, eZ]; exact rep_dbl g2 hQ
      have := g3 hP (Q + Q + Affine.Point.some _ _ hP)
        (by rw [fX, fY, fZ]; exact rep_add hP g1 hd)
      rw [hbit, hm, mul_one, add_smul, pow_succ, mul_smul, two_smul, ← add_assoc, ← smul_add]
      exact this

/-- At most two non-singular points over every abscissa. -/
theorem card_points [Finite F] (W : WeierstrassCurve.Affine F) :
    Finite W.Point ∧ Nat.card W.Point ≤ 2 * Nat.card F + 1 := by
  classical
  have hg : ∀ x : F, ∃ y, ∀ y', W.Nonsingular x y' → W.Nonsingular x y := by
    intro x
    by_cases h : ∃ y, W.Nonsingular x y
    · obtain ⟨y, hy⟩ := h
      exact ⟨y, fun _ _ => hy⟩
    · exact ⟨0, fun y' hy' => absurd ⟨y', hy'⟩ h⟩
  choose g hg using hg
  let f : W.Point → Option (F × Bool) := fun P =>
    match P with
    | .zero => none
    | .some x y _ => some (x, decide (y = g x))
  have hf : Function.Injective f := by
    intro P Q hPQ
    match P, Q with
    | .zero, .zero => rfl
    | .zero, .some _ _ _ => simp [f] at hPQ
    | .some _ _ _, .zero => simp [f] at hPQ
    | .some x y h, .some x' y' h' =>
      simp only [f, Option.some.injEq, Prod.mk.injEq] at hPQ
      obtain ⟨rfl, hd⟩ := hPQ
      have hyy : y = y' := by
        by_cases e : y = g x
        · have e' : y' = g x := by simpa [e] using hd
          rw [e, e']
        · have e' : ¬ y' = g x := by simpa [e] using hd
          have hgx := hg x y h
          rcases Affine.Y_eq_of_X_eq h.1 hgx.1 rfl with r | r
          · exact absurd r e
          · rcases Affine.Y_eq_of_X_eq h'.1 hgx.1 rfl with r' | r'
            · exact absurd r' e'
            · rw [r, r']
      subst hyy
      rfl
  have hfin : Finite W.Point := Finite.of_injective f hf
  refine ⟨hfin, ?_⟩
  have := Nat.card_le_card_of_injective f hf
  rw [Finite.card_option, Nat.card_prod, Nat.card_eq_fintype_card (α := Bool), Fintype.card_bool,
    mul_comm] at this
  exact this

end

open WeierstrassCurve in
/-- A point of prime order `r`, with `(r - 1)² > 4·N`, proves `N` prime. -/
theorem ecpp (i N a x y r : Nat) (hr : r.Prime) (h : ecppCheck i N a x y r = true) :
    N.Prime := by
  simp only [ecppCheck, Bool.and_eq_true, decide_eq_true_eq, beq_iff_eq] at h
  obtain ⟨⟨⟨hN, hbig⟩, htop⟩, hl⟩ := h
  by_contra hnp
  set q := N.minFac with hqdef
  have hq : q.Prime := Nat.minFac_prime (by omega)
  have := Fact.mk hq
  have hqN : q ∣ N := Nat.minFac_dvd N
  have hsq : q * q ≤ N := by
    have := Nat.minFac_sq_le_self (by omega) hnp
    rwa [pow_two] at this
  have hz : ((N : Nat) : ZMod q) = 0 := (ZMod.natCast_eq_zero_iff _ _).mpr hqN
  let b : ZMod q := (y : ZMod q) ^ 2 - (x : ZMod q) ^ 3 - a * x
  obtain ⟨X', Y', Z', hf, hs⟩ := lad_sound (F := ZMod q) (b := b) hz (by omega) _ _ _ _ hl
  simp only [jfin, Bool.and_eq_true, beq_iff_eq] at hf
  obtain ⟨⟨hg, hX⟩, hY⟩ := hf
  have hZ : (Z' : ZMod q) ≠ 0 := by
    intro h0
    have hd : q ∣ Z' := (ZMod.natCast_eq_zero_iff _ _).mp h0
    have := Nat.dvd_gcd hd hqN
    rw [hg] at this
    exact hq.one_lt.ne' (Nat.dvd_one.mp this)
  obtain ⟨-, h2y, hrep⟩ := hs hZ
  have h2y := h2y (by omega)
  rw [Nat.cast_one, mul_one] at h2y
  have hP : (cubic (a : ZMod q) b).Nonsingular (x : ZMod q) (y : ZMod q) := by
    rw [Affine.nonsingular_iff]
    constructor
    · rw [Affine.equation_iff]
      simp only [cubic, b]
      ring
    · right
      simp only [cubic]
      intro h0
      apply h2y
      linear_combination h0
  have hrep := hrep hP (Affine.Point.some _ _ hP) ⟨by simp, by simpa using hP, by simp⟩
  have hn : 2 ^ (i + 1) + (r - 1) % 2 ^ (i + 1) = r - 1 := by
    rw [Nat.shiftRight_eq_div_pow] at htop
    have := Nat.div_add_mod (r - 1) (2 ^ (i + 1))
    rw [htop, mul_one] at this
    exact this
  rw [← add_smul, hn] at hrep
  obtain ⟨-, hns, hpt⟩ := hrep
  have cX := congrArg (Nat.cast : Nat → ZMod q) hX
  have cY := congrArg (Nat.cast : Nat → ZMod q) hY
  simp only [cast_mod hz, cast_sub_mod hz (by omega : 0 < N), Nat.cast_add, Nat.cast_mul,
    Nat.cast_zero] at cX cY
  have hneg : (r - 1) • Affine.Point.some _ _ hP = -Affine.Point.some _ _ hP := by
    rw [hpt, Affine.Point.neg_some]
    have e1 : (X' : ZMod q) / (Z' : ZMod q) ^ 2 = x := by
      rw [div_eq_iff (pow_ne_zero _ hZ)]
      linear_combination cX
    have e2 : (Y' : ZMod q) / (Z' : ZMod q) ^ 3 =
        (cubic (a : ZMod q) b).negY (x : ZMod q) (y : ZMod q) := by
      simp only [Affine.negY, cubic]
      rw [div_eq_iff (pow_ne_zero _ hZ)]
      linear_combination cY
    simp only [e1, e2]
  have hzero : r • Affine.Point.some _ _ hP = 0 := by
    have : r = (r - 1) + 1 := by have := hr.one_lt; omega
    rw [this, add_smul, hneg, one_smul, neg_add_cancel]
  have := Fact.mk hr
  have hord : addOrderOf (Affine.Point.some _ _ hP) = r :=
    addOrderOf_eq_prime hzero (Affine.Point.some_ne_zero hP)
  obtain ⟨hfin, hcard⟩ := card_points (cubic (a : ZMod q) b)
  have hle : r ≤ Nat.card (cubic (a : ZMod q) b).Point := by
    rw [← hord]
    exact Nat.le_of_dvd Nat.card_pos (addOrderOf_dvd_natCard _)
  rw [Nat.card_zmod] at hcard
  have h1 : r - 1 ≤ 2 * q := by omega
  have h2 : (r - 1) * (r - 1) ≤ 2 * q * (2 * q) := Nat.mul_le_mul h1 h1
  have h3 : 2 * q * (2 * q) = 4 * (q * q) := by ring
  omega

end PoS
