import Verif.Proof.Ops
import Verif.Proof.Rep

/-!
Kernel evaluation of constants: residues as natural numbers and `F_p²` elements as pairs of natural numbers.
-/

set_option linter.unusedSectionVars false

namespace Bls

/-- The residue of a Montgomery literal. -/
def unmont (c : Fp) : ℕ := c.val * RinvN % p

/-- A pair of naturals standing for an element of `F_p²`. -/
structure N2 where
  a : ℕ
  b : ℕ
deriving DecidableEq

namespace N2

def mul (x y : N2) : N2 := ⟨(x.a * y.a + (p - x.b % p) * y.b) % p, (x.a * y.b + x.b * y.a) % p⟩
def conj (x : N2) : N2 := ⟨x.a % p, (p - x.b % p) % p⟩
def neg (x : N2) : N2 := ⟨(p - x.a % p) % p, (p - x.b % p) % p⟩
def add (x y : N2) : N2 := ⟨(x.a + y.a) % p, (x.b + y.b) % p⟩
def sub (x y : N2) : N2 := x.add y.neg

/-- `x^e * acc` for `e < 2^fuel`. -/
def powAux : ℕ → N2 → ℕ → N2 → N2
  | 0, _, _, acc => acc
  | f + 1, x, e, acc => powAux f (x.mul x) (e / 2) (if e % 2 = 1 then acc.mul x else acc)

def pow (x : N2) (e : ℕ) : N2 := powAux (e.log2 + 1) x e ⟨1, 0⟩

variable {K : Type} [Field K]

/-- The element of `F_p²`. -/
def cast (K : Type) [Field K] (x : N2) : Fp2 K := ⟨x.a, x.b⟩

variable [IsFp K]

theorem cast_mod (n : ℕ) : ((n % p : ℕ) : K) = n := by
  rw [IsFp.natCast_eq_iff, Nat.mod_mod]

theorem cast_neg (n : ℕ) : ((p - n % p : ℕ) : K) = -n := by
  rw [Nat.cast_sub (Nat.mod_lt _ p_prime.pos).le, cast_mod, IsFp.cast_p, zero_sub]

theorem to_mul (x y : N2) : cast K (x.mul y) = cast K x * cast K y := by
  ext
  · simp only [cast, mul, cast_mod, cast_neg, Nat.cast_add, Nat.cast_mul, Fp2.mul_c0]; ring
  · simp only [cast, mul, cast_mod, Nat.cast_add, Nat.cast_mul, Fp2.mul_c1]

theorem to_conj (x : N2) : cast K x.conj = ⟨(cast K x).c0, -(cast K x).c1⟩ := by
  ext <;> simp only [cast, conj, cast_mod, cast_neg]

theorem to_neg (x : N2) : cast K x.neg = -cast K x := by
  ext <;> simp only [cast, neg, cast_mod, cast_neg, Fp2.neg_c0, Fp2.neg_c1]

theorem to_add (x y : N2) : cast K (x.add y) = cast K x + cast K y := by
  ext <;> simp only [cast, add, cast_mod, Nat.cast_add, Fp2.add_c0, Fp2.add_c1]

theorem to_sub (x y : N2) : cast K (x.sub y) = cast K x - cast K y := by
  rw [sub, to_add, to_neg, sub_eq_add_neg]

theorem to_one : cast K ⟨1, 0⟩ = 1 := by ext <;> simp [cast]

theorem to_powAux : ∀ (f : ℕ) (x : N2) (e : ℕ) (acc : N2), e < 2 ^ f →
    cast K (powAux f x e acc) = cast K x ^ e * cast K acc
  | 0, x, e, acc, h => by
    have : e = 0 := by simpa using h
    simp [powAux, this]
  | f + 1, x, e, acc, h => by
    have h2 : e / 2 < 2 ^ f := by rw [pow_succ] at h; omega
    rw [powAux, to_powAux f _ _ _ h2, to_mul, ← sq, ← pow_mul]
    by_cases h1 : e % 2 = 1
    · rw [if_pos h1, to_mul]
      have : e = 2 * (e / 2) + 1 := by omega
      conv_rhs => rw [this]
      rw [pow_succ]
      ring
    · rw [if_neg h1]
      have : 2 * (e / 2) = e := by omega
      rw [this]

theorem to_pow (x : N2) (e : ℕ) : cast K (x.pow e) = cast K x ^ e := by
  rw [pow, to_powAux _ _ _ _ Nat.lt_log2_self, to_one, mul_one]

theorem to_inj {x y : N2} : cast K x = cast K y ↔ x.a % p = y.a % p ∧ x.b % p = y.b % p := by
  rw [Fp2.ext_iff]
  simp only [cast, IsFp.natCast_eq_iff]

theorem to_eq {x y : N2} (h : x.a % p = y.a % p ∧ x.b % p = y.b % p) : cast K x = cast K y := to_inj.2 h

end N2

section

variable {K : Type} [Field K] [FpOps K] [LawfulFp K]

theorem unmont_mul (c : Fp) (h : c.val < p) : unmont c * 2 ^ 384 % p = c.val := by
  have hR : RinvN * 2 ^ 384 % p = 1 := by decide +kernel
  rw [unmont, Nat.mod_mul_mod, Nat.mul_assoc, Nat.mul_mod, hR, Nat.mul_one, Nat.mod_mod,
    Nat.mod_eq_of_lt h]

/-- Value of a Montgomery literal. -/
theorem const_nat (c : Fp) (h : c.val < p) : (FpOps.const c : K) = (unmont c : K) :=
  const_eq_of _ h (unmont_mul c h)

/-- Value of a pair of Montgomery literals. -/
theorem const2 (c d : Fp) (hc : c.val < p) (hd : d.val < p) :
    (⟨FpOps.const c, FpOps.const d⟩ : Fp2 K) = N2.cast K ⟨unmont c, unmont d⟩ := by
  rw [const_nat c hc, const_nat d hd]; rfl

end

end Bls
