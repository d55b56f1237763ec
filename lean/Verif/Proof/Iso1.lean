import Verif.Proof.PolyList
import Verif.Proof.SwuFns

/-! The 11-isogeny of the first group: identities between its polynomials. -/

namespace Bls
open Rfc PolyList

section
variable {K : Type} [Field K] [FpOps K] [LawfulFp K]

theorem polyVal_cast (x : K) : ∀ cs : List ℕ, polyVal (cs.map Nat.cast) x = ev (N := NatP) (NatP.cast K) x cs
  | [] => rfl
  | c :: cs => by
    rw [List.map_cons, polyVal, polyVal_cast x cs]; rfl

/-- Coefficients in Montgomery form, highest first. -/
theorem isoPoly1 (ws : List Fp) (cs : List ℕ) (w : Fp) (t : List Fp) (hw : ws = w :: t)
    (hlt : (w :: t).all (fun c => Nat.blt c.val p) = true)
    (h : eqL (N := NatP) (ws.map unmont).reverse cs = true) (x : K) :
    G1.isoPoly ws x = polyVal (cs.map Nat.cast) x := by
  have hc : ∀ c ∈ w :: t, (FpOps.const c : K) = NatP.cast K (unmont c) := fun c hc =>
    const_nat c (Nat.blt_eq ▸ List.all_eq_true.1 hlt c hc)
  rw [polyVal_cast, ← ev_eq (f := NatP.cast K) x _ _ h, hw, G1.isoPoly]
  rw [List.tail_cons, List.headD_cons, hc w List.mem_cons_self, List.map_cons]
  refine Eq.trans ?_ (horner_cons (f := NatP.cast K) x (unmont w) (t.map unmont))
  congr 1
  refine (List.map_congr_left fun c h => hc c (List.mem_cons_of_mem _ h)).trans ?_
  exact (List.map_map (f := unmont) (g := NatP.cast K)).symm

theorem isoPoly1_xNum (x : K) : G1.isoPoly G1.isoW0 x = polyVal (xNum1.map Nat.cast) x :=
  isoPoly1 _ _ _ _ (by rw [G1.isoW0]) (by decide +kernel) (by decide +kernel) x

theorem isoPoly1_xDen (x : K) : G1.isoPoly G1.isoW1 x = polyVal (xDen1.map Nat.cast) x :=
  isoPoly1 _ _ _ _ (by rw [G1.isoW1]) (by decide +kernel) (by decide +kernel) x

theorem isoPoly1_yNum (x : K) : G1.isoPoly G1.isoW2 x = polyVal (yNum1.map Nat.cast) x :=
  isoPoly1 _ _ _ _ (by rw [G1.isoW2]) (by decide +kernel) (by decide +kernel) x

theorem isoPoly1_yDen (x : K) : G1.isoPoly G1.isoW3 x = polyVal (yDen1.map Nat.cast) x :=
  isoPoly1 _ _ _ _ (by rw [G1.isoW3]) (by decide +kernel) (by decide +kernel) x

/-- Abscissas of the kernel. -/
def kernel1 : List ℕ := [
    0x10ef325dd1e98bdf0d97a4c6b7f968ed7f31f2fbff088acb39d5319cfc261ea18773405f325612742f0c5d90634bcf4,
    0xd7f2d0d03ae035321eed4c1479d13251abf0e9a96479623eb5380b575e319851fb5e5a8b43b9c1a46880f54bf2b2f7c,
    0x105249b4cac630ce5aa18e6c1189a18c82019b4e12e491fbac012c259ca3a67f638560b8bb416af02a4724385ed0fc8e,
    0x140d41735b10ce710727cd9356905701a2b866b803baa468948b7f423ddcc560c9a8f1cd5f8ed4297c37464fb8bfe4a7,
    0x1665a9c648e78314490a94f654d9b1039ab85847223bfaed9aa54f0f07736d122d1ceca1ac0e9123e753fde16e97c3d7]

/-- The kernel polynomial. -/
def hP : List NatP := kernel1.foldr (fun r acc => pmul (N := NatP) [Nat.sub p r, (1 : ℕ)] acc) [(1 : ℕ)]

def hP2 : List NatP := pmul hP hP
def hP3 : List NatP := pmul hP2 hP

theorem xDen1_eq : eqL (N := NatP) xDen1 hP2 = true := by decide +kernel
theorem yDen1_eq : eqL (N := NatP) yDen1 hP3 = true := by decide +kernel

def xNumN : List NatP := xNum1
def yNumN : List NatP := yNum1
def cubicN : List NatP := [swuB1, swuA1, (0 : ℕ), (1 : ℕ)]
def fourN : List NatP := [(4 : ℕ)]

theorem iso1_eq : eqL (pmul cubicN (pmul yNumN yNumN))
    (addL (pmul xNumN (pmul xNumN xNumN)) (pmul fourN (pmul hP3 hP3))) = true := by
  decide +kernel

/-- Value of the kernel polynomial. -/
def ker1 (x : K) : K := ev (NatP.cast K) x hP

theorem xDen1_val (x : K) : polyVal (xDen1.map Nat.cast) x = ker1 x ^ 2 := by
  rw [polyVal_cast, ev_eq (f := NatP.cast K) x _ _ xDen1_eq, hP2, ev_pmul, ker1, sq]

theorem yDen1_val (x : K) : polyVal (yDen1.map Nat.cast) x = ker1 x ^ 3 := by
  rw [polyVal_cast, ev_eq (f := NatP.cast K) x _ _ yDen1_eq, hP3, ev_pmul, hP2, ev_pmul, ker1]; ring

theorem cubic1_val (x : K) : ev (NatP.cast K) x cubicN =
    cubic (swuA1 : K) (swuB1 : K) x := by
  simp only [cubicN, ev]
  change (swuB1 : K) + x * ((swuA1 : K) + x * (((0 : ℕ) : K) + x * (((1 : ℕ) : K) + x * 0))) = _
  rw [cubic, Nat.cast_zero, Nat.cast_one]; ring

theorem four_val (x : K) : ev (NatP.cast K) x fourN = 4 := by
  simp only [fourN, ev]
  change ((4 : ℕ) : K) + x * 0 = _
  rw [mul_zero, add_zero]; norm_num

theorem iso1_val (x : K) : cubic (swuA1 : K) (swuB1 : K) x * polyVal (yNum1.map Nat.cast) x ^ 2 =
    polyVal (xNum1.map Nat.cast) x ^ 3 + 4 * ker1 x ^ 6 := by
  have h := ev_eq (f := NatP.cast K) x _ _ iso1_eq
  rw [ev_pmul, ev_pmul, ev_add, ev_pmul, ev_pmul, ev_pmul, ev_pmul, hP3, ev_pmul, hP2, ev_pmul, cubic1_val,
    four_val, ← ker1] at h
  rw [polyVal_cast, polyVal_cast]
  change _ * ev (NatP.cast K) x yNumN ^ 2 = ev (NatP.cast K) x xNumN ^ 3 + _
  linear_combination h

theorem ker1_zero {x : K} (h : ker1 x = 0) : ∃ r ∈ kernel1, x = (r : K) := by
  have lin : ∀ r : ℕ, r < p → ev (N := NatP) (NatP.cast K) x [Nat.sub p r, (1 : ℕ)] = x - r := by
    intro r hr
    simp only [ev]
    change ((p - r : ℕ) : K) + x * (((1 : ℕ) : K) + x * 0) = _
    rw [Nat.cast_sub hr.le, (IsFp.natCast_eq_zero_iff (K := K) (a := p)).2 (Nat.mod_self p), Nat.cast_one]; ring
  have hall : ∀ r ∈ kernel1, r < p := by decide +kernel
  have gen : ∀ l : List ℕ, (∀ r ∈ l, r < p) →
      ev (NatP.cast K) x (l.foldr (fun r acc => pmul (N := NatP) [Nat.sub p r, (1 : ℕ)] acc) [(1 : ℕ)]) = 0 →
      ∃ r ∈ l, x = (r : K) := by
    intro l hl
    induction l with
    | nil =>
      intro h0
      simp only [List.foldr_nil, ev] at h0
      change ((1 : ℕ) : K) + x * 0 = 0 at h0
      rw [Nat.cast_one, mul_zero, add_zero] at h0
      exact absurd h0 one_ne_zero
    | cons r l ih =>
      intro h0
      rw [List.foldr_cons, ev_pmul, lin r (hl r List.mem_cons_self), mul_eq_zero] at h0
      rcases h0 with h0 | h0
      · exact ⟨r, List.mem_cons_self, sub_eq_zero.1 h0⟩
      · obtain ⟨s, hs, e⟩ := ih (fun r hr => hl r (List.mem_cons_of_mem _ hr)) h0
        exact ⟨s, List.mem_cons_of_mem _ hs, e⟩
  exact gen kernel1 hall h

end

end Bls
