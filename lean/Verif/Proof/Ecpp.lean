import Verif.Proof.Curve
import Mathlib.Algebra.Field.ZMod
import Mathlib.Data.Nat.Prime.Basic
import Mathlib.GroupTheory.OrderOfElement
import Mathlib.Tactic.Ring

/-! Primality from a point of large prime order (Goldwasser–Kilian with the trivial bound on the number of
points). The certificate is a double-and-add chain in affine coordinates with the needed inverses. -/

namespace Bls.Ecpp

open WeierstrassCurve.Affine

/-- `k ↦ 2k` or `2k + 1` for every bit, most significant first. -/
def bitsVal : List Bool → Nat → Nat
  | [], k => k
  | b :: bs, k => bitsVal bs (2 * k + b.toNat)

/-- The affine chain: one inverse per doubling and one per addition of the base point. -/
def chain (n a x0 y0 : Nat) : List Bool → List Nat → Nat → Nat → Option (Nat × Nat)
  | [], _, X, Y => some (X, Y)
  | _ :: _, [], _, _ => none
  | false :: bs, w :: ws, X, Y =>
    if 2 * Y * w % n = 1 then
      let l := (3 * X * X + a) * w % n
      let X' := (l * l + (n - 1) * (2 * X)) % n
      let Y' := (l * (X + (n - 1) * X') + (n - 1) * Y) % n
      chain n a x0 y0 bs ws X' Y'
    else none
  | true :: bs, w :: ws, X, Y =>
    match ws with
    | [] => none
    | v :: vs =>
      if 2 * Y * w % n = 1 then
        let l := (3 * X * X + a) * w % n
        let X' := (l * l + (n - 1) * (2 * X)) % n
        let Y' := (l * (X + (n - 1) * X') + (n - 1) * Y) % n
        if (X' + (n - 1) * x0) * v % n = 1 then
          let l2 := (Y' + (n - 1) * y0) * v % n
          let X2 := (l2 * l2 + (n - 1) * (X' + x0)) % n
          let Y2 := (l2 * (X' + (n - 1) * X2) + (n - 1) * Y') % n
          chain n a x0 y0 bs vs X2 Y2
        else none
      else none

variable {n : Nat} {t : Nat} [Fact t.Prime]

theorem cast_mod_dvd (h : t ∣ n) (m : Nat) : ((m % n : Nat) : ZMod t) = m := by
  rw [ZMod.natCast_eq_natCast_iff]
  exact (Nat.mod_modEq m n).of_dvd h

theorem cast_pred (h : t ∣ n) (hn : 0 < n) : ((n - 1 : Nat) : ZMod t) = -1 := by
  rw [Nat.cast_sub hn, (ZMod.natCast_eq_zero_iff n t).2 h]; simp

/-- `X, Y` are the coordinates of `P`. -/
def At {K : Type*} [Field K] {a b : K} (P : (curveAB a b).Point) (x y : K) : Prop :=
  ∃ h, P = Point.some x y h

theorem At.dbl {K : Type*} [Field K] [DecidableEq K] {a b : K} {P : (curveAB a b).Point} {x y w : K}
    (h : At P x y) (hw : 2 * y * w = 1) : At (P + P) (((3 * x * x + a) * w) ^ 2 - 2 * x)
      (((3 * x * x + a) * w) * (x - (((3 * x * x + a) * w) ^ 2 - 2 * x)) - y) := by
  obtain ⟨h, rfl⟩ := h
  have hy : 2 * y ≠ 0 := by intro h0; rw [h0] at hw; simp at hw
  exact dbl_affine h hy (by linear_combination (3 * x ^ 2 + a) * hw)

theorem At.add {K : Type*} [Field K] [DecidableEq K] {a b : K} {P Q : (curveAB a b).Point}
    {x y x0 y0 w : K} (h : At P x y) (hQ : At Q x0 y0) (hw : (x - x0) * w = 1) :
    At (P + Q) (((y - y0) * w) ^ 2 - x - x0)
      (((y - y0) * w) * (x - (((y - y0) * w) ^ 2 - x - x0)) - y) := by
  obtain ⟨h, rfl⟩ := h
  obtain ⟨hQ, rfl⟩ := hQ
  have hne : x ≠ x0 := by intro h0; rw [h0] at hw; simp at hw
  exact add_affine h hQ hne (by linear_combination (y - y0) * hw)

theorem At.congr {K : Type*} [Field K] {a b : K} {P : (curveAB a b).Point} {x y x' y' : K}
    (h : At P x y) (hx : x = x') (hy : y = y') : At P x' y' := by subst hx hy; exact h

theorem chain_spec (hd : t ∣ n) (hn : 0 < n) {a x0 y0 : Nat} {b : ZMod t}
    {P : (curveAB (a : ZMod t) b).Point} (hP : At P (x0 : ZMod t) (y0 : ZMod t)) :
    ∀ (bs : List Bool) (ws : List Nat) (X Y k X' Y' : Nat), At (k • P) (X : ZMod t) (Y : ZMod t) →
      chain n a x0 y0 bs ws X Y = some (X', Y') →
      At (bitsVal bs k • P) (X' : ZMod t) (Y' : ZMod t) := by
  have hone : ∀ {m : Nat}, m % n = 1 → (m : ZMod t) = 1 := by
    intro m h
    rw [← cast_mod_dvd hd m, h, Nat.cast_one]
  have hdbl : ∀ (X Y w k : Nat), At (k • P) (X : ZMod t) (Y : ZMod t) → 2 * Y * w % n = 1 →
      At ((2 * k) • P)
        ((((((3 * X * X + a) * w % n) * ((3 * X * X + a) * w % n) + (n - 1) * (2 * X)) % n : Nat)) : ZMod t)
        (((((3 * X * X + a) * w % n) * (X + (n - 1) *
          ((((3 * X * X + a) * w % n) * ((3 * X * X + a) * w % n) + (n - 1) * (2 * X)) % n)) +
          (n - 1) * Y) % n : Nat) : ZMod t) := by
    intro X Y w k h hw
    have h1 := hone hw
    push_cast at h1
    rw [two_mul, add_smul]
    refine (h.dbl h1).congr ?_ ?_ <;>
    · simp only [cast_mod_dvd hd, Nat.cast_add, Nat.cast_mul, cast_pred hd hn, Nat.cast_ofNat]
      ring
  intro bs
  induction bs with
  | nil =>
    intro ws X Y k X' Y' h hc
    simp only [chain, Option.some.injEq, Prod.mk.injEq] at hc
    obtain ⟨rfl, rfl⟩ := hc
    exact h
  | cons b bs ih =>
    intro ws X Y k X' Y' h hc
    match b, ws with
    | false, [] => simp [chain] at hc
    | true, [] => simp [chain] at hc
    | false, w :: ws =>
      simp only [chain] at hc
      split_ifs at hc with hw
      exact ih ws _ _ (2 * k) _ _ (hdbl X Y w k h hw) hc
    | true, [w] => simp [chain] at hc
    | true, w :: v :: vs =>
      simp only [chain] at hc
      split_ifs at hc with hw hv
      refine ih vs _ _ (2 * k + 1) _ _ ?_ hc
      have h2 := hdbl X Y w k h hw
      generalize ((((3 * X * X + a) * w % n) * ((3 * X * X + a) * w % n) + (n - 1) * (2 * X)) % n : Nat) = X1 at h2 hv ⊢
      generalize ((((3 * X * X + a) * w % n) * (X + (n - 1) * X1) +
          (n - 1) * Y) % n : Nat) = Y1 at h2 ⊢
      have h1 := hone hv
      simp only [Nat.cast_add, Nat.cast_mul, cast_pred hd hn] at h1
      rw [add_smul, one_smul]
      refine (h2.add hP (w := (v : ZMod t)) (by linear_combination h1)).congr ?_ ?_ <;>
      · simp only [cast_mod_dvd hd, Nat.cast_add, Nat.cast_mul, cast_pred hd hn]
        ring

/-- The certificate check. -/
def check (n a b x0 y0 r : Nat) (bs : List Bool) (ws : List Nat) (w0 : Nat) : Bool :=
  decide (2 * y0 * w0 % n = 1) && decide (y0 * y0 % n = (x0 * x0 * x0 + a * x0 + b) % n) &&
    decide (bitsVal bs 1 = r - 1) && decide (y0 < n) && decide (x0 < n) &&
    decide (chain n a x0 y0 bs ws x0 y0 = some (x0, n - y0))

theorem order_le (hd : t ∣ n) {a b x0 y0 r : Nat} {bs : List Bool} {ws : List Nat} {w0 : Nat}
    (hr : r.Prime) (h : check n a b x0 y0 r bs ws w0 = true) : r ≤ 2 * t + 1 := by
  simp only [check, Bool.and_eq_true, decide_eq_true_eq] at h
  obtain ⟨⟨⟨⟨⟨h1, h2⟩, h3⟩, h4⟩, h5⟩, h6⟩ := h
  have hn : 0 < n := by omega
  have e1 : (2 : ZMod t) * y0 * w0 = 1 := by
    have := cast_mod_dvd hd (2 * y0 * w0)
    rw [h1] at this
    push_cast at this
    exact this.symm
  have e2 : (y0 : ZMod t) ^ 2 = (x0 : ZMod t) ^ 3 + a * x0 + b := by
    have l := cast_mod_dvd hd (y0 * y0)
    rw [h2, cast_mod_dvd hd] at l
    push_cast at l
    linear_combination -l
  have hns := nonsingular_of e2 (fun h0 => by rw [h0] at e1; simp at e1)
  let P : (curveAB (a : ZMod t) (b : ZMod t)).Point := .some _ _ hns
  have hP : At P (x0 : ZMod t) (y0 : ZMod t) := ⟨hns, rfl⟩
  have hc := chain_spec hd hn hP bs ws x0 y0 1 _ _ (by rw [one_smul]; exact hP) h6
  rw [h3] at hc
  obtain ⟨hc1, hc2⟩ := hc
  have hneg : (r - 1) • P = -P := by
    rw [hc2]
    show _ = -Point.some _ _ hns
    rw [Point.neg_some]
    simp only [Point.some.injEq, negY_curve, true_and]
    rw [Nat.cast_sub h4.le, (ZMod.natCast_eq_zero_iff n t).2 hd, zero_sub]
  have hz : r • P = 0 := by
    have : r = (r - 1) + 1 := (Nat.succ_pred_prime hr).symm
    rw [this, add_smul, one_smul, hneg, neg_add_cancel]
  have hne : P ≠ 0 := Point.some_ne_zero hns
  have ho : addOrderOf P = r := by
    have hfact : Fact r.Prime := ⟨hr⟩
    exact addOrderOf_eq_prime hz hne
  obtain ⟨hfin, hcard⟩ := card_points_le (K := ZMod t) (a := (a : ZMod t)) (b := (b : ZMod t))
  have h7 : addOrderOf P ≤ Nat.card (curveAB (a : ZMod t) (b : ZMod t)).Point :=
    addOrderOf_le_card
  rw [ho] at h7
  have h8 : Nat.card (ZMod t) = t := by simp
  rw [h8] at hcard
  omega

theorem prime_of_check {n a b x0 y0 r : Nat} {bs : List Bool} {ws : List Nat} {w0 : Nat}
    (hr : r.Prime) (h : check n a b x0 y0 r bs ws w0 = true) (hn2 : 2 ≤ n)
    (hn : n < ((r - 1) / 2) * ((r - 1) / 2)) : n.Prime := by
  by_contra hp
  have h1 := Nat.minFac_sq_le_self (by omega) hp
  have h2 : n.minFac.Prime := Nat.minFac_prime (by omega)
  have : Fact n.minFac.Prime := ⟨h2⟩
  have h3 := order_le (Nat.minFac_dvd n) hr h
  have h4 : (r - 1) / 2 ≤ n.minFac := by omega
  have h5 := Nat.mul_le_mul h4 h4
  rw [sq] at h1
  omega

end Bls.Ecpp
