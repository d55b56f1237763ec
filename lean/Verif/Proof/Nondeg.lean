import Verif.Proof.Pair
import Verif.Proof.NatEval
import Verif.Spec.Pairing

/-! The pairing of the generators is not one: kernel evaluation on residues. -/

namespace Bls

section
variable {N F : Type} (f : N → F) [FpOps N] [FpOps F] [FpHom f]
open OpsHom FpHom

namespace Fp2
theorem map_add (x y : Fp2 N) : (x.add y).map f = (x.map f).add (y.map f) := h_add (f := Fp2.map f) x y
theorem map_sub (x y : Fp2 N) : (x.sub y).map f = (x.map f).sub (y.map f) := h_sub (f := Fp2.map f) x y
theorem map_neg (x : Fp2 N) : x.neg.map f = (x.map f).neg := h_neg (f := Fp2.map f) x
theorem map_dbl (x : Fp2 N) : x.dbl.map f = (x.map f).dbl := h_dbl (f := Fp2.map f) x
theorem map_mul (x y : Fp2 N) : (x.mul y).map f = (x.map f).mul (y.map f) := h_mul (f := Fp2.map f) x y
theorem map_sqr (x : Fp2 N) : x.sqr.map f = (x.map f).sqr := h_sqr (f := Fp2.map f) x
theorem map_mulByNonResidue (x : Fp2 N) : x.mulByNonResidue.map f = (x.map f).mulByNonResidue := by
  simp only [map, mulByNonResidue, h_sub, h_add]
theorem map_mulByB (x : Fp2 N) : x.mulByB.map f = (x.map f).mulByB := by
  simp only [map, mulByB, h_sub, h_add, h_dbl]
theorem map_mulByFq (x : Fp2 N) (e : N) : (x.mulByFq e).map f = (x.map f).mulByFq (f e) := by
  simp only [map, mulByFq, h_mul]
end Fp2

namespace Fp6
open Fp2
theorem map_add (x y : Fp6 N) : (x.add y).map f = (x.map f).add (y.map f) := by simp only [map, add, Fp2.map_add]
theorem map_sub (x y : Fp6 N) : (x.sub y).map f = (x.map f).sub (y.map f) := by simp only [map, sub, Fp2.map_sub]
theorem map_neg (x : Fp6 N) : x.neg.map f = (x.map f).neg := by simp only [map, neg, Fp2.map_neg]
theorem map_dbl (x : Fp6 N) : x.dbl.map f = (x.map f).dbl := by simp only [map, dbl, Fp2.map_dbl]
theorem map_mul (x y : Fp6 N) : (x.mul y).map f = (x.map f).mul (y.map f) := by
  simp only [map, mul, Fp2.map_mul, Fp2.map_add, Fp2.map_sub, Fp2.map_mulByNonResidue]
theorem map_mulByNonResidue (x : Fp6 N) : x.mulByNonResidue.map f = (x.map f).mulByNonResidue := by
  simp only [map, mulByNonResidue, Fp2.map_mulByNonResidue]
theorem map_mulBy01 (x : Fp6 N) (a b : Fp2 N) : (x.mulBy01 a b).map f = (x.map f).mulBy01 (a.map f) (b.map f) := by
  simp only [map, mulBy01, Fp2.map_mul, Fp2.map_add, Fp2.map_sub, Fp2.map_mulByNonResidue]
theorem map_mulBy01Assign (x : Fp6 N) (a b : Fp2 N) :
    (x.mulBy01Assign a b).map f = (x.map f).mulBy01Assign (a.map f) (b.map f) := by
  simp only [map, mulBy01Assign, Fp2.map_mul, Fp2.map_add, Fp2.map_sub, Fp2.map_mulByNonResidue]
theorem map_mulBy1 (x : Fp6 N) (a : Fp2 N) : (x.mulBy1 a).map f = (x.map f).mulBy1 (a.map f) := by
  simp only [map, mulBy1, Fp2.map_mul, Fp2.map_mulByNonResidue]
end Fp6

namespace Fp12
theorem map_one : (one : Fp12 N).map f = one := by
  have h0 : (Fp2.zero : Fp2 N).map f = Fp2.zero := h_zero (f := Fp2.map f)
  have h1 : (Fp2.one : Fp2 N).map f = Fp2.one := h_one (f := Fp2.map f)
  simp only [map, one, Fp6.map, Fp6.one, Fp6.zero, h0, h1]
theorem map_conjugate (x : Fp12 N) : x.conjugate.map f = (x.map f).conjugate := by
  simp only [map, conjugate, Fp6.map_neg]
theorem map_mul (x y : Fp12 N) : (x.mul y).map f = (x.map f).mul (y.map f) := by
  simp only [map, mul, Fp6.map_mul, Fp6.map_add, Fp6.map_sub, Fp6.map_mulByNonResidue]
theorem map_sqr (x : Fp12 N) : x.sqr.map f = (x.map f).sqr := by
  simp only [map, sqr, Fp6.map_mul, Fp6.map_add, Fp6.map_sub, Fp6.map_dbl, Fp6.map_mulByNonResidue]
theorem map_mulBy014 (x : Fp12 N) (a b c : Fp2 N) :
    (x.mulBy014 a b c).map f = (x.map f).mulBy014 (a.map f) (b.map f) (c.map f) := by
  simp only [map, mulBy014, Fp6.map_mulBy01, Fp6.map_mulBy1, Fp6.map_mulBy01Assign, Fp6.map_add, Fp6.map_sub,
    Fp6.map_mulByNonResidue, Fp2.map_add]
end Fp12

namespace Pairing

def Coeff.map (c : Coeff N) : Coeff F := ⟨c.c0.map f, c.c1.map f, c.c2.map f⟩

theorem map_twoInv : f FpC.twoInv = FpC.twoInv := h_const _ (by decide +kernel)

theorem map_doublingStep (r : G2 N) : doublingStep (Jac.map (Fp2.map f) r : G2 F) =
    ((doublingStep r).1.map f, Jac.map (Fp2.map f) (doublingStep r).2) := by
  simp only [doublingStep, Jac.map, Coeff.map, Fp2.map_add, Fp2.map_sub, Fp2.map_neg, Fp2.map_dbl, Fp2.map_mul,
    Fp2.map_sqr, Fp2.map_mulByB, Fp2.map_mulByFq, map_twoInv]

theorem map_additionStep (r t : G2 N) :
    additionStep (Jac.map (Fp2.map f) r : G2 F) (Jac.map (Fp2.map f) t) =
      ((additionStep r t).1.map f, Jac.map (Fp2.map f) (additionStep r t).2) := by
  simp only [additionStep, Jac.map, Coeff.map, Fp2.map_add, Fp2.map_sub, Fp2.map_neg, Fp2.map_dbl, Fp2.map_mul,
    Fp2.map_sqr]

end Pairing
end

instance {N : Type} [Strict N] : Strict (Fp6 N) where
  force x k := Strict.force x.c0 fun a => Strict.force x.c1 fun b => Strict.force x.c2 fun c => k ⟨a, b, c⟩
  force_eq x k := by rw [Strict.force_eq, Strict.force_eq, Strict.force_eq]

instance {N : Type} [Strict N] : Strict (Fp12 N) where
  force x k := Strict.force x.c0 fun a => Strict.force x.c1 fun b => k ⟨a, b⟩
  force_eq x k := by rw [Strict.force_eq, Strict.force_eq]

namespace Pairing

/-- A line and the accumulator. -/
def ellS {N : Type} [FpOps N] (P : G1 N) (c : Coeff N) (g : Fp12 N) : Fp12 N :=
  g.mulBy014 c.c0 (c.c1.mulByFq P.x) (c.c2.mulByFq P.y)

/-- The Miller loop of one pair without a table. -/
def millerS {N : Type} [FpOps N] [Strict N] (P : G1 N) (tp : G2 N) : ℕ → G2 N → Fp12 N → Fp12 N
  | 0, _, g => g
  | i + 1, r, g =>
    Strict.force (if i ≠ 62 then g.sqr else g) fun g =>
    Strict.force (ellS P (doublingStep r).1 g) fun g =>
    Strict.force (doublingStep r).2 fun r =>
    if loopBit i then
      Strict.force (ellS P (additionStep r tp).1 g) fun g =>
      Strict.force (additionStep r tp).2 fun r => millerS P tp i r g
    else millerS P tp i r g

section
variable {N : Type} [FpOps N] [Strict N] {K : Type} [Field K] [FpOps K] [LawfulFp K] [DecidableEq K] (f : N → K) [FpHom f]

theorem map_ellS (P : G1 N) (c : Coeff N) (g : Fp12 N) :
    (ellS P c g).map f = g.map f * lineVal (Jac.map f P : G1 K) (c.map f) := by
  simp only [ellS, Fp12.map_mulBy014, Fp2.map_mulByFq, Fp12.mulBy014_eq, Fp2.mulByFq_eq, lineVal, Jac.map, Coeff.map]

theorem map_sq (c : Prop) [Decidable c] (g : Fp12 N) :
    Fp12.map f (if c then g.sqr else g) = if c then g.map f * g.map f else g.map f := by
  by_cases h : c
  · rw [if_pos h, if_pos h, Fp12.map_sqr, Fp12.sqr_eq]
  · rw [if_neg h, if_neg h]

theorem millerS_eq (P : G1 N) (tp : G2 N) : ∀ (i k : ℕ) (r : G2 N) (g : Fp12 N) (V : ℕ → Fp12 K),
    (∀ j < entries i, V (k + j) =
      lineVal (Jac.map f P : G1 K) (entry (preComputeLoop (Jac.map (Fp2.map f) tp : G2 K) i (Jac.map (Fp2.map f) r)) j)) →
    loopVal V i k (g.map f) = (millerS P tp i r g).map f
  | 0, _, _, _, _, _ => rfl
  | i + 1, k, r, g, V, hV => by
    simp only [millerS, Strict.force_eq, loopVal, ← map_sq]
    generalize (if i ≠ 62 then g.sqr else g) = g'
    by_cases hb : loopBit i = true
    · rw [if_pos hb, if_pos hb]
      simp only [entries, preComputeLoop, if_pos hb, map_doublingStep, map_additionStep] at hV
      have v0 := hV 0 (by omega)
      have v1 := hV 1 (by omega)
      rw [entry_cons_zero, add_zero] at v0
      rw [entry_cons_succ, entry_cons_zero] at v1
      rw [v0, v1, ← map_ellS, ← map_ellS]
      refine millerS_eq P tp i _ _ _ V fun j hj => ?_
      have := hV (j + 2) (by omega)
      rwa [show k + (j + 2) = k + 2 + j by omega] at this
    · rw [if_neg hb, if_neg hb]
      simp only [entries, preComputeLoop, if_neg hb, map_doublingStep] at hV
      have v0 := hV 0 (by omega)
      rw [entry_cons_zero, add_zero] at v0
      rw [v0, ← map_ellS]
      refine millerS_eq P tp i _ _ _ V fun j hj => ?_
      have := hV (j + 1) (by omega)
      rwa [show k + (j + 1) = k + 1 + j by omega] at this

/-- Strict square-and-multiply on the low `fuel` bits of `n`. -/
def powS (fuel n : ℕ) (a b : Fp12 N) : Fp12 N :=
  match fuel with
  | 0 => a
  | fuel + 1 =>
    Strict.force (if Nat.beq (Nat.mod n 2) 1 then a.mul b else a) fun a =>
      Strict.force b.sqr fun b => Strict.force (N := NatP) (Nat.div n 2) fun m => powS fuel m a b

theorem pow_aux {L : Type*} [Field L] (a b : L) (n m : ℕ) : (if n % 2 = 1 then a * b else a) * (b * b) ^ m =
    a * b ^ (n % 2 + 2 * m) := by
  rcases Nat.mod_two_eq_zero_or_one n with h | h
  · rw [h, if_neg (by decide), zero_add, pow_mul, sq]
  · rw [h, if_pos rfl, pow_add, pow_one, pow_mul, sq, mul_assoc]

theorem powS_eq : ∀ (fuel n : ℕ) (a b : Fp12 N), n < 2 ^ fuel → (powS fuel n a b).map f = a.map f * b.map f ^ n
  | 0, n, a, b, h => by
    rw [powS, show n = 0 by omega, pow_zero, mul_one]
  | fuel + 1, n, a, b, h => by
    have e : ∀ c : Bool, Fp12.map f (if c then a.mul b else a) = if c then a.map f * b.map f else a.map f := by
      rintro (_ | _)
      · rfl
      · change (a.mul b).map f = _
        rw [Fp12.map_mul, Fp12.mul_eq]; rfl
    have e2 : Nat.beq (Nat.mod n 2) 1 = decide (n % 2 = 1) := by
      change Nat.beq (n % 2) 1 = _
      rcases Nat.mod_two_eq_zero_or_one n with h | h <;> rw [h] <;> rfl
    rw [powS, Strict.force_eq, Strict.force_eq]
    refine (congrArg (Fp12.map f) (Strict.force_eq (N := NatP) (n / 2 : ℕ) fun m => powS fuel m _ _)).trans ?_
    refine (powS_eq fuel (n / 2) _ _ (by rw [pow_succ] at h; omega)).trans ?_
    rw [e, Fp12.map_sqr, Fp12.sqr_eq, e2]
    simp only [decide_eq_true_eq]
    rw [pow_aux (L := Fp12 K), Nat.mod_add_div]

end

section
/-- The value at the generators. -/
def genVal : Fp12 NatP :=
  powS 4400 finalExp Fp12.one
    (millerS (jac1 gen1X gen1Y) (jac2 ⟨gen2X0, gen2X1⟩ ⟨gen2Y0, gen2Y1⟩) 63
      (jac2 ⟨gen2X0, gen2X1⟩ ⟨gen2Y0, gen2Y1⟩) Fp12.one).conjugate

theorem genVal_eq : (Strict.force genVal fun v => v.equal (gtGen (K := NatP) fun n => n)) = true := by decide +kernel

end

end Pairing

end Bls
