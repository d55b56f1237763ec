import Verif.Proof.Chord
import Verif.Proof.Endo

/-!
# Miller functions as sums of a symmetric cocycle

Abstract group-theoretic part of bilinearity.
-/

namespace Bls.Cocycle

variable {G M : Type*} [AddCommGroup G] [CommGroup M]

/-- A normalised symmetric cocycle. -/
structure IsCocycle (k : G → G → M) : Prop where
  zero : ∀ Q, k 0 Q = 1
  comm : ∀ P Q, k P Q = k Q P
  cocycle : ∀ P Q R, k P Q * k (P + Q) R = k Q R * k P (Q + R)

/-- The Miller function `f_n` at `Q`: the product of the lines through `iQ` and `Q` for `i < n`. -/
def phi (k : G → G → M) (Q : G) : ℕ → M
  | 0 => 1
  | n + 1 => phi k Q n * k (n • Q) Q

variable {k : G → G → M}

theorem phi_one (hk : IsCocycle k) (Q : G) : phi k Q 1 = 1 := by
  rw [phi, phi, zero_smul, hk.zero, mul_one]

theorem phi_zero (hk : IsCocycle k) : ∀ n, phi k 0 n = 1
  | 0 => rfl
  | n + 1 => by rw [phi, phi_zero hk n, smul_zero, hk.zero, mul_one]

theorem phi_add (hk : IsCocycle k) (Q : G) (m : ℕ) : ∀ n, phi k Q (m + n) = phi k Q m * phi k Q n * k (m • Q) (n • Q)
  | 0 => by rw [zero_smul, hk.comm, hk.zero, add_zero, phi, mul_one, mul_one]
  | n + 1 => by
    have h := hk.cocycle (m • Q) (n • Q) Q
    rw [← add_assoc, phi, phi_add hk Q m n, phi, add_smul m n, succ_nsmul]
    calc phi k Q m * phi k Q n * k (m • Q) (n • Q) * k (m • Q + n • Q) Q
        = phi k Q m * phi k Q n * (k (m • Q) (n • Q) * k (m • Q + n • Q) Q) := by rw [mul_assoc]
      _ = _ := by rw [h, ← mul_assoc, ← mul_assoc]

theorem four (hk : IsCocycle k) (A B C D : G) :
    k A C * k B D * k (A + C) (B + D) = k A B * k C D * k (A + B) (C + D) := by
  have key : ∀ A B C : G, k A B * k C D * k (A + B) (C + D) = k B C * k A (B + C) * k (A + B + C) D := by
    intro A B C
    have h1 := hk.cocycle (A + B) C D
    have h2 := hk.cocycle A B C
    calc k A B * k C D * k (A + B) (C + D) = k A B * (k C D * k (A + B) (C + D)) := by rw [mul_assoc]
      _ = k A B * k (A + B) C * k (A + B + C) D := by rw [← h1, mul_assoc]
      _ = _ := by rw [h2]
  rw [key A B C, key A C B, hk.comm B C, add_comm C B, add_right_comm]

theorem phi_linear (hk : IsCocycle k) (Q R : G) : ∀ n,
    phi k Q n * phi k R n * k (n • Q) (n • R) = k Q R ^ n * phi k (Q + R) n
  | 0 => by rw [zero_smul, hk.zero]; simp [phi]
  | n + 1 => by
    have ih := phi_linear hk Q R n
    have h4 := four hk (n • Q) (n • R) Q R
    rw [phi, phi, phi, succ_nsmul, succ_nsmul, smul_add, pow_succ]
    calc phi k Q n * k (n • Q) Q * (phi k R n * k (n • R) R) * k (n • Q + Q) (n • R + R)
        = phi k Q n * phi k R n * (k (n • Q) Q * k (n • R) R * k (n • Q + Q) (n • R + R)) := by
          simp only [mul_assoc, mul_left_comm, mul_comm]
      _ = phi k Q n * phi k R n * k (n • Q) (n • R) * (k Q R * k (n • Q + n • R) (Q + R)) := by
          rw [h4]; simp only [mul_assoc]
      _ = _ := by rw [ih]; simp only [mul_assoc, mul_left_comm, mul_comm]

/-- Three cocycles whose product is a coboundary. -/
theorem phi_three {k₁ k₂ k₃ : G → G → M} {g : G → M} {Q : G} (h₁ : IsCocycle k₁) (h₂ : IsCocycle k₂)
    (h₃ : IsCocycle k₃) (N : ℕ)
    (hg : ∀ n, 0 < n → n ≤ N → g (n • Q) * g (-(n • Q)) = 1)
    (hk : ∀ n, 0 < n → n < N → k₁ (n • Q) Q * k₂ (n • Q) Q * k₃ (n • Q) Q = g (n • Q) * g Q * g (-(n • Q + Q))) :
    ∀ n, 0 < n → n ≤ N → phi k₁ Q n * phi k₂ Q n * phi k₃ Q n = g Q ^ n * g (-(n • Q))
  | 0, h, _ => absurd h (lt_irrefl _)
  | 1, _, hN => by
    have := hg 1 one_pos hN
    rw [one_smul] at this ⊢
    rw [phi_one h₁, phi_one h₂, phi_one h₃, pow_one, this]; simp
  | n + 2, _, hN => by
    have ih := phi_three h₁ h₂ h₃ N hg hk (n + 1) n.succ_pos (by omega)
    have e1 := hg (n + 1) n.succ_pos (by omega)
    have e2 := hk (n + 1) n.succ_pos (by omega)
    rw [phi, phi, phi, succ_nsmul Q (n + 1), pow_succ]
    calc phi k₁ Q (n + 1) * k₁ ((n + 1) • Q) Q * (phi k₂ Q (n + 1) * k₂ ((n + 1) • Q) Q) *
          (phi k₃ Q (n + 1) * k₃ ((n + 1) • Q) Q)
        = phi k₁ Q (n + 1) * phi k₂ Q (n + 1) * phi k₃ Q (n + 1) *
          (k₁ ((n + 1) • Q) Q * k₂ ((n + 1) • Q) Q * k₃ ((n + 1) • Q) Q) := by
          simp only [mul_assoc, mul_left_comm, mul_comm]
      _ = g Q ^ (n + 1) * (g ((n + 1) • Q) * g (-((n + 1) • Q))) * (g Q * g (-((n + 1) • Q + Q))) := by
          rw [ih, e2]; simp only [mul_assoc, mul_left_comm, mul_comm]
      _ = _ := by rw [e1, mul_one, mul_assoc]

end Bls.Cocycle
