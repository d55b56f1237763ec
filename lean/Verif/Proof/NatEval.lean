import Verif.Proof.Groups
import Verif.Proof.Roots

/-!
Kernel evaluation of model functions: residues as natural numbers. `NatP` implements the operations of `fp` by
arithmetic modulo `p` on `ℕ`; `cast` commutes with all operations.
-/

namespace Bls

/-- Residues modulo `p`. -/
def NatP : Type := ℕ

namespace NatP

def limbs (n : ℕ) : Fp := ⟨UInt64.ofNat n, UInt64.ofNat (n / 2 ^ 64), UInt64.ofNat (n / 2 ^ 128),
  UInt64.ofNat (n / 2 ^ 192), UInt64.ofNat (n / 2 ^ 256), UInt64.ofNat (n / 2 ^ 320)⟩

instance : FpOps NatP where
  zero := (0 : ℕ)
  one := (1 : ℕ)
  add x y := Nat.mod (Nat.add x y) p
  sub x y := Nat.mod (Nat.add x (Nat.sub p (Nat.mod y p))) p
  neg x := Nat.mod (Nat.sub p (Nat.mod x p)) p
  dbl x := Nat.mod (Nat.add x x) p
  mul x y := Nat.mod (Nat.mul x y) p
  sqr x := Nat.mod (Nat.mul x x) p
  inv x := powMod p x (p - 2)
  isZero x := Nat.beq (Nat.mod x p) 0
  isOne x := Nat.beq (Nat.mod x p) 1
  equal x y := Nat.beq (Nat.mod x p) (Nat.mod y p)
  mulLadd x y z := Nat.mod (Nat.mul (Nat.add x y) z) p
  mulLdbl x z := Nat.mod (Nat.mul (Nat.add x x) z) p
  const c := unmont c
  toMont c := Nat.mod c.val p
  fromMont x := limbs (Nat.mod x p)

/-- The residue class. -/
def cast (K : Type) [Field K] (x : NatP) : K := Nat.cast (R := K) x

end NatP

/-- A map that commutes with the operations of a field class. -/
class OpsHom {N F : Type} [Ops N] [Ops F] (f : N → F) : Prop where
  h_zero : f Ops.zero = Ops.zero
  h_one : f Ops.one = Ops.one
  h_add (x y : N) : f (Ops.add x y) = Ops.add (f x) (f y)
  h_sub (x y : N) : f (Ops.sub x y) = Ops.sub (f x) (f y)
  h_neg (x : N) : f (Ops.neg x) = Ops.neg (f x)
  h_dbl (x : N) : f (Ops.dbl x) = Ops.dbl (f x)
  h_mul (x y : N) : f (Ops.mul x y) = Ops.mul (f x) (f y)
  h_sqr (x : N) : f (Ops.sqr x) = Ops.sqr (f x)
  h_inv (x : N) : f (Ops.inv x) = Ops.inv (f x)
  h_isZero (x : N) : Ops.isZero (f x) = Ops.isZero x
  h_isOne (x : N) : Ops.isOne (f x) = Ops.isOne x
  h_equal (x y : N) : Ops.equal (f x) (f y) = Ops.equal x y

/-- A map that commutes with the operations of `fp`. -/
class FpHom {N F : Type} [FpOps N] [FpOps F] (f : N → F) : Prop extends OpsHom f where
  h_mulLadd (x y z : N) : f (FpOps.mulLadd x y z) = FpOps.mulLadd (f x) (f y) (f z)
  h_mulLdbl (x z : N) : f (FpOps.mulLdbl x z) = FpOps.mulLdbl (f x) (f z)
  h_const (c : Fp) : c.val < p → f (FpOps.const c) = FpOps.const c
  h_toMont (c : Fp) : f (FpOps.toMont c) = FpOps.toMont c
  h_fromMont (x : N) : FpOps.fromMont (f x) = FpOps.fromMont x

section
variable {K : Type} [Field K] [FpOps K] [LawfulFp K]

theorem NatP.limbs_val (n : ℕ) (h : n < 2 ^ 384) : (limbs n).val = n := by
  simp only [limbs, Fp.val, UInt64.toNat_ofNat']
  omega

theorem NatP.beq_iff (a b : ℕ) : a = b ↔ Nat.beq a b = true := ⟨fun h => by rw [h, Nat.beq_refl], Nat.eq_of_beq_eq_true⟩

theorem NatP.powMod_inv (x : ℕ) : ((powMod p x (p - 2) : ℕ) : K) = (x : K)⁻¹ := by
  refine (IsFp.powMod_cast (K := K) x (p - 2)).trans ?_
  generalize (x : K) = y
  by_cases h : y = 0
  · rw [h, zero_pow (by decide +kernel), inv_zero]
  · refine eq_inv_of_mul_eq_one_left ?_
    rw [← pow_succ]
    exact IsFp.pow_pred h

instance : FpHom (NatP.cast K) where
  h_zero := Eq.trans Nat.cast_zero (LawfulOps.zero_eq (F := K)).symm
  h_one := Eq.trans Nat.cast_one (LawfulOps.one_eq (F := K)).symm
  h_add x y := Eq.trans ((N2.cast_mod _).trans (Nat.cast_add (R := K) _ _)) (LawfulOps.add_eq (F := K) _ _).symm
  h_sub x y := by
    refine Eq.trans ?_ (LawfulOps.sub_eq (F := K) _ _).symm
    refine Eq.trans ?_ (sub_eq_add_neg (G := K) _ _).symm
    refine (N2.cast_mod _).trans ((Nat.cast_add (R := K) _ _).trans ?_)
    exact congrArg _ (N2.cast_neg _)
  h_neg x := Eq.trans ((N2.cast_mod _).trans (N2.cast_neg _)) (LawfulOps.neg_eq (F := K) _).symm
  h_dbl x := Eq.trans ((N2.cast_mod _).trans (Nat.cast_add (R := K) _ _)) (LawfulOps.dbl_eq (F := K) _).symm
  h_mul x y := Eq.trans ((N2.cast_mod _).trans (Nat.cast_mul (α := K) _ _)) (LawfulOps.mul_eq (F := K) _ _).symm
  h_sqr x := Eq.trans ((N2.cast_mod _).trans (Nat.cast_mul (α := K) _ _)) (LawfulOps.sqr_eq (F := K) _).symm
  h_inv x := Eq.trans (NatP.powMod_inv x) (LawfulOps.inv_eq (F := K) _).symm
  h_isZero x := by
    rw [Bool.eq_iff_iff, LawfulOps.isZero_iff]
    exact IsFp.natCast_eq_zero_iff.trans (NatP.beq_iff _ _)
  h_isOne x := by
    rw [Bool.eq_iff_iff, LawfulOps.isOne_iff]
    have h := IsFp.natCast_eq_iff (K := K) (a := x) (b := 1)
    rw [Nat.cast_one, Nat.mod_eq_of_lt (show 1 < p by decide +kernel)] at h
    exact h.trans (NatP.beq_iff _ _)
  h_equal x y := by
    rw [Bool.eq_iff_iff, LawfulOps.equal_iff]
    exact IsFp.natCast_eq_iff.trans (NatP.beq_iff _ _)
  h_mulLadd x y z := by
    refine Eq.trans ?_ (LawfulFp.mulLadd_eq (K := K) _ _ _).symm
    refine (N2.cast_mod _).trans ((Nat.cast_mul (α := K) _ _).trans ?_)
    exact congrArg (· * _) (Nat.cast_add (R := K) _ _)
  h_mulLdbl x z := by
    refine Eq.trans ?_ (LawfulFp.mulLdbl_eq (K := K) _ _).symm
    refine (N2.cast_mod _).trans ((Nat.cast_mul (α := K) _ _).trans ?_)
    exact congrArg (· * _) (Nat.cast_add (R := K) _ _)
  h_const c h := (const_nat c h).symm
  h_toMont c := Eq.trans (N2.cast_mod _) (LawfulFp.toMont_eq (K := K) _).symm
  h_fromMont x := by
    have hp : Nat.mod x p < p := Nat.mod_lt _ p_prime.pos
    apply Fp.val_inj
    have h1 : (FpOps.fromMont (K := NatP) x).val = Nat.mod x p :=
      NatP.limbs_val _ (hp.trans (by decide +kernel))
    rw [h1, ← FpC.fromMont_natCast (K := K) hp]
    congr 2
    exact (N2.cast_mod (K := K) x).symm

end

section
variable {N F : Type} (f : N → F)

def Fp2.map (x : Fp2 N) : Fp2 F := ⟨f x.c0, f x.c1⟩
def Fp6.map (x : Fp6 N) : Fp6 F := ⟨x.c0.map f, x.c1.map f, x.c2.map f⟩
def Fp12.map (x : Fp12 N) : Fp12 F := ⟨x.c0.map f, x.c1.map f⟩
def Jac.map (a : Jac N) : Jac F := ⟨f a.x, f a.y, f a.z⟩

variable [FpOps N] [FpOps F] [FpHom f]

open OpsHom FpHom

instance : OpsHom (Fp2.map f) where
  h_zero := by change Fp2.map f Fp2.zero = Fp2.zero; simp only [Fp2.map, Fp2.zero, h_zero]
  h_one := by change Fp2.map f Fp2.one = Fp2.one; simp only [Fp2.map, Fp2.one, h_zero, h_one]
  h_add x y := by change Fp2.map f (Fp2.add x y) = Fp2.add _ _; simp only [Fp2.map, Fp2.add, h_add]
  h_sub x y := by change Fp2.map f (Fp2.sub x y) = Fp2.sub _ _; simp only [Fp2.map, Fp2.sub, h_sub]
  h_neg x := by change Fp2.map f (Fp2.neg x) = Fp2.neg _; simp only [Fp2.map, Fp2.neg, h_neg]
  h_dbl x := by change Fp2.map f (Fp2.dbl x) = Fp2.dbl _; simp only [Fp2.map, Fp2.dbl, h_dbl]
  h_mul x y := by change Fp2.map f (Fp2.mul x y) = Fp2.mul _ _; simp only [Fp2.map, Fp2.mul, h_mul, h_add, h_sub]
  h_sqr x := by change Fp2.map f (Fp2.sqr x) = Fp2.sqr _; simp only [Fp2.map, Fp2.sqr, h_mulLadd, h_mulLdbl, h_sub]
  h_inv x := by change Fp2.map f (Fp2.inv x) = Fp2.inv _; simp only [Fp2.map, Fp2.inv, h_inv, h_sqr, h_mul, h_add, h_neg]
  h_isZero x := by change Fp2.isZero _ = Fp2.isZero _; simp only [Fp2.map, Fp2.isZero, h_isZero]
  h_isOne x := by change Fp2.isOne _ = Fp2.isOne _; simp only [Fp2.map, Fp2.isOne, h_isZero, h_isOne]
  h_equal x y := by change Fp2.equal _ _ = Fp2.equal _ _; simp only [Fp2.map, Fp2.equal, h_equal]

end

section
variable {N F : Type} (f : N → F) [Ops N] [Ops F] [OpsHom f]
open OpsHom

theorem Jac.map_isZero (a : Jac N) : (a.map f).isZero = a.isZero := h_isZero (f := f) a.z

theorem Jac.map_zero : (Jac.zero : Jac N).map f = Jac.zero := by
  simp only [Jac.map, Jac.zero, h_zero, h_one]

theorem Jac.map_dbl (a : Jac N) : (a.dbl).map f = (a.map f).dbl := by
  rw [Jac.dbl, Jac.dbl, Jac.map_isZero]
  by_cases h : a.isZero
  · rw [if_pos h, if_pos h]
  · rw [if_neg h, if_neg h]
    simp only [Jac.map, h_add, h_sub, h_mul, h_sqr, h_dbl]

theorem Jac.map_add (a e : Jac N) : (a.add e).map f = (a.map f).add (e.map f) := by
  rw [Jac.add, Jac.add, Jac.map_isZero, Jac.map_isZero]
  by_cases h : a.isZero
  · rw [if_pos h, if_pos h]
  by_cases h' : e.isZero
  · rw [if_neg h, if_neg h, if_pos h', if_pos h']
  rw [if_neg h, if_neg h, if_neg h', if_neg h']
  have e1 : ∀ x y, Ops.equal (f x) (f y) = Ops.equal x y := h_equal (f := f)
  have e2 := Jac.map_dbl f a
  simp only [Jac.map] at e2 ⊢
  simp only [← h_mul, ← h_sqr, ← h_dbl, ← h_sub, ← h_add, e1]
  split_ifs
  · exact e2
  · exact Jac.map_zero f
  · rfl

theorem Jac.map_equal (a e : Jac N) : (a.map f).equal (e.map f) = a.equal e := by
  rw [Jac.equal, Jac.equal, Jac.map_isZero, Jac.map_isZero]
  have e1 : ∀ x y, Ops.equal (f x) (f y) = Ops.equal x y := h_equal (f := f)
  simp only [Jac.map, ← h_mul, ← h_sqr, e1]

theorem Jac.map_negate (a : Jac N) : (a.negate).map f = (a.map f).negate := by
  simp only [Jac.map, Jac.negate, h_neg]

end

/-- Evaluate the argument before the continuation. -/
class Strict (N : Type) where
  force : {α : Type} → N → (N → α) → α
  force_eq : ∀ {α : Type} (x : N) (k : N → α), force x k = k x

instance : Strict NatP where
  force x k := Nat.casesOn (motive := fun _ => _) x (k (0 : ℕ)) (fun m => k (Nat.succ m))
  force_eq x k := by cases x <;> rfl

instance {N : Type} [Strict N] : Strict (Fp2 N) where
  force x k := Strict.force x.c0 fun a => Strict.force x.c1 fun b => k ⟨a, b⟩
  force_eq x k := by rw [Strict.force_eq, Strict.force_eq]

instance {N : Type} [Strict N] : Strict (Jac N) where
  force x k := Strict.force x.x fun a => Strict.force x.y fun b => Strict.force x.z fun c => k ⟨a, b, c⟩
  force_eq x k := by rw [Strict.force_eq, Strict.force_eq, Strict.force_eq]

/-- Strict double-and-add on bits `i, i+1, …, i+fuel-1` of `n`. -/
def mulS {N : Type} [Ops N] [Strict N] (n : ℕ) : ℕ → ℕ → Jac N → Jac N → Jac N
  | 0, _, q, _ => q
  | fuel + 1, i, q, a =>
    Strict.force (if Nat.mod (Nat.div n (Nat.pow 2 i)) 2 = 1 then q.add a else q) fun q' =>
      Strict.force a.dbl fun a' => mulS n fuel (i + 1) q' a'

theorem mulS_rep {N F : Type} [Ops N] [Strict N] [Field F] [DecidableEq F] [Ops F] [LawfulOps F] (f : N → F) [OpsHom f]
    {b : F} (hb : GoodCurve b) (n : ℕ) : ∀ (fuel i : ℕ) (q a : Jac N) (Q P : (curve b).Point), (q.map f).Rep Q →
    (a.map f).Rep P → ((mulS n fuel i q a).map f).Rep (Q + (n / 2 ^ i % 2 ^ fuel) • P)
  | 0, i, q, a, Q, P, hq, ha => by
    rw [pow_zero, Nat.mod_one, zero_smul, add_zero]; exact hq
  | fuel + 1, i, q, a, Q, P, hq, ha => by
    rw [mulS, Strict.force_eq, Strict.force_eq]
    have hd : (a.dbl.map f).Rep (P + P) := by rw [Jac.map_dbl]; exact Jac.dbl_rep ha
    have hq' : ((if Nat.mod (Nat.div n (Nat.pow 2 i)) 2 = 1 then q.add a else q).map f).Rep
        (Q + (n / 2 ^ i % 2) • P) := by
      change ((if n / 2 ^ i % 2 = 1 then q.add a else q).map f).Rep _
      by_cases h : n / 2 ^ i % 2 = 1
      · rw [if_pos h, h, one_smul, Jac.map_add]; exact Jac.add_rep hb hq ha
      · rw [if_neg h, show n / 2 ^ i % 2 = 0 by omega, zero_smul, add_zero]; exact hq
    have := mulS_rep f hb n fuel (i + 1) _ _ _ _ hq' hd
    rw [← two_smul ℕ P, ← mul_smul, add_assoc, ← add_smul] at this
    convert this using 3
    rw [pow_succ' 2 fuel, Nat.mod_mul, pow_succ, ← Nat.div_div_eq_div_mul]
    ring

/-- `n • P` on residues. -/
def natMul {N : Type} [Ops N] [Strict N] (n : ℕ) (a : Jac N) : Jac N := mulS n (n.log2 + 1) 0 Jac.zero a

theorem natMul_rep {N F : Type} [Ops N] [Strict N] [Field F] [DecidableEq F] [Ops F] [LawfulOps F] (f : N → F) [OpsHom f]
    {b : F} (hb : GoodCurve b) (n : ℕ) (a : Jac N) (P : (curve b).Point) (ha : (a.map f).Rep P) :
    ((natMul n a).map f).Rep (n • P) := by
  have := mulS_rep f hb n (n.log2 + 1) 0 Jac.zero a 0 P (by rw [Jac.map_zero]; exact Jac.zero_rep) ha
  rwa [zero_add, pow_zero, Nat.div_one, Nat.mod_eq_of_lt Nat.lt_log2_self] at this

/-! ### Points with explicit coordinates -/

section
variable (K : Type) [Field K] [FpOps K] [LawfulFp K] [DecidableEq K]

/-- The point of `E1` with coordinates `x`, `y`. -/
def pt1 (x y : ℕ) (h : y * y % p = (x * x * x + 4) % p) : E1 K :=
  .some (x : K) (y : K) ((goodCurve1 K).nonsingular (by
    have := (IsFp.natCast_eq_iff (K := K)).2 h
    rw [Nat.cast_mul, Nat.cast_add, Nat.cast_mul, Nat.cast_mul, Nat.cast_ofNat] at this
    rw [sq, this]; ring))

def jac1 (x y : ℕ) : Jac NatP := ⟨x, y, (1 : ℕ)⟩

theorem pt1_rep (x y : ℕ) (h) : ((jac1 x y).map (NatP.cast K)).Rep (pt1 K x y h) := by
  have e : NatP.cast K (1 : ℕ) = 1 := Nat.cast_one
  refine ⟨?_, ?_, ?_⟩
  · change NatP.cast K (1 : ℕ) ≠ 0
    rw [e]; exact one_ne_zero
  · change (x : K) = x * NatP.cast K (1 : ℕ) ^ 2
    rw [e, one_pow, mul_one]
  · change (y : K) = y * NatP.cast K (1 : ℕ) ^ 3
    rw [e, one_pow, mul_one]

/-- The point of `E2` with coordinates `x`, `y`. -/
def pt2 (x y : N2) (h : y.mul y = ((x.mul x).mul x).add ⟨4, 4⟩) : E2 K :=
  .some (x.cast K) (y.cast K) ((goodCurve2 K).nonsingular (by
    have := congrArg (N2.cast K) h
    rw [N2.to_mul, N2.to_add, N2.to_mul, N2.to_mul] at this
    rw [sq, this, four_xi]; ring))

def jac2 (x y : N2) : Jac (Fp2 NatP) := ⟨⟨x.a, x.b⟩, ⟨y.a, y.b⟩, ⟨(1 : ℕ), (0 : ℕ)⟩⟩

theorem pt2_rep (x y : N2) (h) : ((jac2 x y).map (Fp2.map (NatP.cast K))).Rep (pt2 K x y h) := by
  have e : Fp2.map (NatP.cast K) ⟨(1 : ℕ), (0 : ℕ)⟩ = 1 := by
    ext
    · exact Nat.cast_one
    · exact Nat.cast_zero
  refine ⟨?_, ?_, ?_⟩
  · change Fp2.map (NatP.cast K) ⟨(1 : ℕ), (0 : ℕ)⟩ ≠ 0
    rw [e]; exact one_ne_zero
  · change x.cast K = x.cast K * Fp2.map (NatP.cast K) ⟨(1 : ℕ), (0 : ℕ)⟩ ^ 2
    rw [e, one_pow, mul_one]
  · change y.cast K = y.cast K * Fp2.map (NatP.cast K) ⟨(1 : ℕ), (0 : ℕ)⟩ ^ 3
    rw [e, one_pow, mul_one]

theorem gen1_eq : gen1 K = pt1 K gen1X gen1Y (by decide +kernel) := rfl

theorem gen2_eq : gen2 K = pt2 K ⟨gen2X0, gen2X1⟩ ⟨gen2Y0, gen2Y1⟩ (by decide +kernel) := rfl

variable {K}

end

section
variable {N F : Type} [Ops N] [Strict N] [Field F] [DecidableEq F] [Ops F] [LawfulOps F] {f : N → F} [OpsHom f]
  {b : F} (hb : GoodCurve b) {a a' : Jac N} {P P' : (curve b).Point} (h : (a.map f).Rep P) (h' : (a'.map f).Rep P')
include hb h

theorem smul_eq_zero_of {n : ℕ} (hz : (natMul n a).isZero = true) : n • P = 0 := by
  have := natMul_rep f hb n _ _ h
  rwa [← Jac.map_isZero f, this.isZero_iff] at hz

theorem smul_ne_zero_of {n : ℕ} (hz : (natMul n a).isZero = false) : n • P ≠ 0 := by
  have := natMul_rep f hb n _ _ h
  intro h0
  rw [← this.isZero_iff, Jac.map_isZero, hz] at h0
  exact Bool.false_ne_true h0

include h'

theorem smul_eq_of {n : ℕ} (hz : (natMul n a).equal a' = true) : n • P = P' := by
  have h1 := natMul_rep f hb n _ _ h
  rwa [← Jac.map_equal f, Jac.equal_iff h1 h'] at hz

end

section
variable (K : Type) [Field K] [FpOps K] [LawfulFp K] [DecidableEq K]

theorem q_smul_gen1 : q • gen1 K = 0 := by
  rw [gen1_eq]
  exact smul_eq_zero_of (goodCurve1 K) (pt1_rep K _ _ _) (by decide +kernel)

theorem q_smul_gen2 : q • gen2 K = 0 := by
  rw [gen2_eq]
  exact smul_eq_zero_of (goodCurve2 K) (pt2_rep K _ _ _) (by decide +kernel)

end

end Bls
