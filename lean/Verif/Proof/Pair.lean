import Verif.Proof.Steps
import Verif.Proof.Keys

/-! Bilinearity of the pairing. -/

set_option linter.unusedSectionVars false

namespace Bls

open WeierstrassCurve.Affine Chord Cocycle

variable {K : Type} [Field K] [FpOps K] [LawfulFp K] [DecidableEq K]

theorem zabs_lt_q : 2 ^ 65 < q := by decide +kernel

/-- Multiples of a point of order `q`. -/
theorem order_smul_ne {G : Type*} [AddCommGroup G] {Q : G} (h : q • Q = 0) (h0 : Q ≠ 0) (k : ℕ) (hk : 0 < k)
    (hk' : k < q) : k • Q ≠ 0 := by
  have : Fact q.Prime := ⟨q_prime⟩
  intro hz
  have := addOrderOf_dvd_of_nsmul_eq_zero hz
  rw [addOrderOf_eq_prime h h0] at this
  exact absurd (Nat.le_of_dvd hk this) (by omega)

/-- A finite point of order `q` of the first curve has nonzero coordinates. -/
theorem coords_ne {x y : K} {h : (curve (4 : K)).Nonsingular x y} (hq : q • (Point.some x y h) = 0) : x ≠ 0 ∧ y ≠ 0 := by
  have h0 : Point.some x y h ≠ 0 := Point.some_ne_zero h
  have hlt : 3 < q := by decide +kernel
  have h2 := order_smul_ne hq h0 2 (by norm_num) (by omega)
  have h3 := order_smul_ne hq h0 3 (by norm_num) hlt
  rw [two_nsmul] at h2
  have hy := Ext.add_self_ne h2
  refine ⟨?_, hy⟩
  rintro rfl
  obtain ⟨n, e⟩ := dbl_affine h (mul_ne_zero (goodCurve1 K).two hy) (l := 0) (by ring)
  apply h3
  rw [succ_nsmul, two_nsmul, e]
  exact Point.add_of_Y_eq (by ring) (by rw [negY_curve]; ring)

namespace Pairing

theorem loopBit_eq : ∀ i < 64, loopBit i = zabs.testBit i := by decide +kernel

theorem zabs_mod (i : ℕ) (hi : i < 64) :
    zabs % 2 ^ (i + 1) = if loopBit i then 2 ^ i + zabs % 2 ^ i else zabs % 2 ^ i := by
  rw [loopBit_eq i hi, Nat.mod_pow_succ, Nat.testBit_eq_decide_div_mod_eq]
  rcases Nat.mod_two_eq_zero_or_one (zabs / 2 ^ i) with h | h
  · rw [h, if_neg (by simp), mul_zero, add_zero]
  · rw [h, if_pos (by simp), mul_one, add_comm]

theorem dbl_HRep {r : G2 K} {R : E2 K} (hr : r.HRep R) (hR : R + R ≠ 0) : (doublingStep r).2.HRep (R + R) ∧
    ∃ c : Fp2 K, c ≠ 0 ∧ ∀ P : (ext12 K).Pt (4 * Fp2.xi : Fp2 K),
      P.lin (doublingStep r).1.c0 (doublingStep r).1.c1 (doublingStep r).1.c2 = (ext12 K).emb c * P.ev (chord R R) := by
  rw [doublingStep_eq]
  exact dbl_step (goodCurve2 K).two twoInv_eq hr hR

theorem add_HRep {r t : G2 K} {R T : E2 K} (hr : r.HRep R) (ht : t.HRep T) (hz : t.z = 1) (hRT : R + T ≠ 0)
    (hRT' : R ≠ T) : (additionStep r t).2.HRep (R + T) ∧
    ∃ c : Fp2 K, c ≠ 0 ∧ ∀ P : (ext12 K).Pt (4 * Fp2.xi : Fp2 K),
      P.lin (additionStep r t).1.c0 (additionStep r t).1.c1 (additionStep r t).1.c2 =
        (ext12 K).emb c * P.ev (chord R T) := by
  rw [additionStep_eq]
  exact add_step (goodCurve2 K).two hr ht hz hRT hRT' rfl rfl

/-- The cocycle of lines at a point. -/
noncomputable abbrev kap (P : (ext12 K).Pt (4 * Fp2.xi : Fp2 K)) : E2 K → E2 K → (Fp12 K)ˣ :=
  P.kap (goodCurve2 K).two (goodCurve2 K)

theorem kap_coc (P : (ext12 K).Pt (4 * Fp2.xi : Fp2 K)) : IsCocycle (kap P) := P.kap_isCocycle _ _

theorem chi_line {P : (ext12 K).Pt (4 * Fp2.xi : Fp2 K)} {v : Fp12 K} {c : Fp2 K} {R T : E2 K} (hc : c ≠ 0)
    (h : v = (ext12 K).emb c * P.ev (chord R T)) : (ext12 K).chi v = kap P R T := by
  rw [h, map_mul, (ext12 K).chi_emb hc, one_mul]
  rfl

theorem entry_cons_zero (c : Coeff K) (cs : List (Coeff K)) : entry (c :: cs) 0 = c := rfl
theorem entry_cons_succ (c : Coeff K) (cs : List (Coeff K)) (j : ℕ) : entry (c :: cs) (j + 1) = entry cs j := rfl

attribute [local irreducible] p q

/-- The Miller loop computes the Miller function. -/
theorem loopVal_phi {x y : K} (h : (curve (4 : K)).Nonsingular x y) (hx : x ≠ 0) (hy : y ≠ 0) {A : G1 K}
    (ex : A.x = x) (ey : A.y = y) {tp : G2 K} {Q : E2 K} (ht : tp.HRep Q) (hz : tp.z = 1)
    (hord : ∀ k, 0 < k → k < q → k • Q ≠ 0) : ∀ (i : ℕ), i ≤ 63 → ∀ (k n : ℕ) (r : G2 K) (f : Fp12 K) (V : ℕ → Fp12 K),
    (∀ j < entries i, V (k + j) = lineVal A (entry (preComputeLoop tp i r) j)) → r.HRep (n • Q) → 0 < n →
    (n + 1) * 2 ^ i ≤ 2 ^ 64 → (i = 63 → f = 1) → (ext12 K).chi f = phi (kap (pt12 h hx hy)) Q n →
    (ext12 K).chi (loopVal V i k f) = phi (kap (pt12 h hx hy)) Q (n * 2 ^ i + zabs % 2 ^ i)
  | 0, _, k, n, r, f, V, _, _, _, _, _, hf => by
    rw [pow_zero, mul_one, Nat.mod_one, add_zero]
    exact hf
  | i + 1, hi, k, n, r, f, V, hV, hr, hn, hn', h1, hf => by
    have hP := pt12 h hx hy
    have hn2 : (2 * n + 2) * 2 ^ i ≤ 2 ^ 64 := by
      refine le_trans (le_of_eq ?_) hn'
      rw [pow_succ]; ring
    have hb : 2 * n + 2 ≤ 2 ^ 64 := le_trans (Nat.le_mul_of_pos_right _ (Nat.two_pow_pos i)) hn2
    have hq := zabs_lt_q
    have hne : ∀ k, 0 < k → k ≤ 2 * n + 1 → k • Q ≠ 0 := fun k h0 hk => hord k h0 (by omega)
    have h2n : n • Q + n • Q = (2 * n) • Q := by rw [two_mul, add_smul]
    obtain ⟨hd, c, hc, hl⟩ := dbl_HRep hr (by rw [h2n]; exact hne _ (by omega) (by omega))
    have hsq : (if i ≠ 62 then f * f else f) = f * f := by
      split_ifs with h62
      · rfl
      · rw [h1 (by omega), mul_one]
    have hcoc := kap_coc (pt12 h hx hy)
    have hphi2 : phi (kap (pt12 h hx hy)) Q (2 * n) =
        phi (kap (pt12 h hx hy)) Q n * phi (kap (pt12 h hx hy)) Q n * kap (pt12 h hx hy) (n • Q) (n • Q) := by
      rw [two_mul, phi_add hcoc]
    rw [zabs_mod i (by omega)]
    simp only [loopVal, hsq]
    by_cases hbit : loopBit i = true
    · rw [if_pos hbit, if_pos hbit]
      simp only [entries, preComputeLoop, if_pos hbit] at hV
      have v0 := hV 0 (by omega)
      have v1 := hV 1 (by omega)
      rw [entry_cons_zero, add_zero, lineVal_eq h hx hy ex ey] at v0
      rw [entry_cons_succ, entry_cons_zero, lineVal_eq h hx hy ex ey] at v1
      rw [h2n] at hd
      have hs : (2 * n) • Q + Q = (2 * n + 1) • Q := by rw [add_smul (2 * n) 1, one_smul]
      obtain ⟨ha, c', hc', hl'⟩ := add_HRep hd ht hz (by rw [hs]; exact hne _ (by omega) (by omega)) (by
        intro e
        apply hne (2 * n - 1) (by omega) (by omega)
        have : (2 * n - 1) • Q + Q = Q := by
          rw [← succ_nsmul, Nat.sub_add_cancel (by omega)]; exact e
        exact add_eq_right.1 this)
      rw [hs] at ha
      have := loopVal_phi h hx hy ex ey ht hz hord i (by omega) (k + 2) (2 * n + 1) _ (f * f * V k * V (k + 1)) V
        (fun j hj => by
          have := hV (j + 2) (by omega)
          rwa [show k + (j + 2) = k + 2 + j by omega] at this) ha (by omega)
        hn2 (by omega) (by
          rw [map_mul, map_mul, map_mul, hf, v0, v1, chi_line hc (hl _), chi_line hc' (hl' _), phi, hphi2]
          push_cast
          ring)
      rw [this]
      congr 1
      rw [pow_succ]; ring
    · rw [if_neg hbit, if_neg hbit]
      simp only [entries, preComputeLoop, if_neg hbit] at hV
      have v0 := hV 0 (by omega)
      rw [entry_cons_zero, add_zero, lineVal_eq h hx hy ex ey] at v0
      rw [h2n] at hd
      have := loopVal_phi h hx hy ex ey ht hz hord i (by omega) (k + 1) (2 * n) _ (f * f * V k) V
        (fun j hj => by
          have := hV (j + 1) (by omega)
          rwa [show k + (j + 1) = k + 1 + j by omega] at this) hd (by omega)
        (le_trans (Nat.mul_le_mul_right _ (by omega)) hn2) (by omega) (by
          rw [map_mul, map_mul, hf, v0, chi_line hc (hl _), hphi2]
          push_cast
          ring)
      rw [this]
      congr 1
      rw [pow_succ]; ring

theorem inv_aux {L : Type*} [Field L] {m v : L} {a e r : ℕ} (h : (m ^ e) ^ r = 1) (hr : r ∣ a + 1) (hv : m ^ e = v) :
    (m ^ a) ^ e * v = 1 := by
  obtain ⟨d, hd⟩ := hr
  rw [← hv, ← pow_mul, mul_comm a e, pow_mul, ← pow_succ, hd, pow_mul, h, one_pow]

/-- The pairing of two points of order `q`, through the Miller function. -/
theorem pairVal_phi {x y : K} {h : (curve (4 : K)).Nonsingular x y} (hx : x ≠ 0) (hy : y ≠ 0) {x' y' : Fp2 K}
    {h' : (curve (4 * Fp2.xi : Fp2 K)).Nonsingular x' y'} (hQ : q • (Point.some x' y' h') = 0) :
    pairVal ⟨x, y, 1⟩ ⟨x', y', 1⟩ * phi (kap (pt12 h hx hy)) (Point.some x' y' h') zabs = 1 := by
  have hz : Jac.isZero (⟨x', y', 1⟩ : G2 K) = false := Jac.isZero_false.2 one_ne_zero
  have hr : Jac.HRep (⟨x', y', 1⟩ : G2 K) (Point.some x' y' h') :=
    ⟨one_ne_zero, (mul_one _).symm, (mul_one _).symm⟩
  have hp : preCompute (⟨x', y', 1⟩ : G2 K) = preComputeLoop ⟨x', y', 1⟩ 63 ⟨x', y', 1⟩ := by
    rw [preCompute, hz]; rfl
  have key := loopVal_phi h hx hy (A := ⟨x, y, 1⟩) rfl rfl hr rfl (order_smul_ne hQ (Point.some_ne_zero h')) 63 le_rfl 0 1
    ⟨x', y', 1⟩ 1 (fun k => lineVal ⟨x, y, 1⟩ (entry (preComputeLoop ⟨x', y', 1⟩ 63 ⟨x', y', 1⟩) k))
    (fun j _ => by rw [Nat.zero_add]) (by rw [one_smul]; exact hr) one_pos (by norm_num) (fun _ => rfl)
    (by rw [phi_one (kap_coc _), map_one]; rfl)
  rw [show 1 * 2 ^ 63 + zabs % 2 ^ 63 = zabs by decide +kernel] at key
  rw [← hp] at key
  have hm : millerVal (⟨x, y, 1⟩ : G1 K) ⟨x', y', 1⟩ ≠ 0 := by
    intro h0
    have h1 : (ext12 K).chi (millerVal (⟨x, y, 1⟩ : G1 K) ⟨x', y', 1⟩) ≠ 0 := by
      rw [millerVal, key]; exact Units.ne_zero _
    rw [h0, ext12_chi] at h1
    exact h1 (zero_pow (by decide +kernel))
  exact inv_aux (ext12_chi_order hm) (by unfold p q; decide +kernel) key

/-- The pairing of two points: `1` if one of them is at infinity. -/
noncomputable def eps : E1 K → E2 K → Fp12 K
  | .some x y _, .some x' y' _ => pairVal ⟨x, y, 1⟩ ⟨x', y', 1⟩
  | .some _ _ _, .zero => 1
  | .zero, _ => 1

theorem eps_zero_left (Q : E2 K) : eps (0 : E1 K) Q = 1 := rfl
theorem eps_zero_right (P : E1 K) : eps P (0 : E2 K) = 1 := by cases P <;> rfl

theorem addPair_eps {a : G1 K} {e : G2 K} {P : E1 K} {Q : E2 K} (h : a.Rep P) (h' : e.Rep Q)
    (l : List (G1 K × G2 K)) : ((addPair l a e).map fun pq => pairVal pq.1 pq.2).prod =
      (l.map fun pq => pairVal pq.1 pq.2).prod * eps P Q := by
  unfold addPair
  match P, h, Q, h' with
  | .zero, h, Q, h' =>
    rw [(Jac.Rep.isZero_iff h).2 rfl]
    change _ = _ * 1
    rw [mul_one]; rfl
  | .some x y hn, h, .zero, h' =>
    rw [(Jac.Rep.isZero_iff h').2 rfl, Bool.or_true]
    change _ = _ * 1
    rw [mul_one]; rfl
  | .some x y hn, h, .some x' y' hn', h' =>
    rw [Jac.isZero_false.2 h.1, Jac.isZero_false.2 h'.1, if_pos (by rfl), List.map_append, List.prod_append,
      Jac.affine_some h, Jac.affine_some h']
    simp [eps]

theorem zabs_pos : 0 < zabs := by decide +kernel
theorem zabs_lt : zabs < 2 ^ 64 := by decide +kernel
theorem q_dvd : q ∣ zabs + p := by unfold p q; decide +kernel

attribute [local irreducible] zabs

theorem eps_val {x y : K} {h : (curve (4 : K)).Nonsingular x y} (hx : x ≠ 0) (hy : y ≠ 0) {T : E2 K} (hT : q • T = 0) :
    eps (Point.some x y h) T = ((phi (kap (pt12 h hx hy)) T zabs)⁻¹ : (Fp12 K)ˣ) := by
  match T, hT with
  | .zero, _ =>
    change 1 = _
    rw [show (Point.zero : E2 K) = 0 from rfl, phi_zero (kap_coc _), inv_one, Units.val_one]
  | .some x' y' h', hT =>
    rw [Units.val_inv_eq_inv_val]
    exact eq_inv_of_mul_eq_one_left (pairVal_phi (h := h) hx hy hT)

theorem psi_hom {T : E2 K} (h : q • T = 0) : (psiData K).hom (goodCurve2 K) T = -(zabs • T) := psi_of_order K h

theorem order_add {G : Type*} [AddCommGroup G] {n : ℕ} {P Q : G} (hP : n • P = 0) (hQ : n • Q = 0) : n • (P + Q) = 0 := by
  rw [nsmul_add, hP, hQ, add_zero]

/-- Linearity in the second argument. -/
theorem eps_add_right {P : E1 K} {Q R : E2 K} (hP : q • P = 0) (hQ : q • Q = 0) (hR : q • R = 0) :
    eps P (Q + R) = eps P Q * eps P R := by
  match P, hP with
  | .zero, _ => exact (mul_one _).symm
  | .some x y h, hP =>
    obtain ⟨hx, hy⟩ := coords_ne hP
    have key := (pt12 h hx hy).phi_add (goodCurve2 K).two (goodCurve2 K) frob12 (pt12_rational h hx hy)
      (N := zabs) (r := q) (fun x h => ext12_chi_order h) q_dvd (psi_hom hQ) (psi_hom hR)
    rw [eps_val hx hy hQ, eps_val hx hy hR, eps_val hx hy (order_add hQ hR), ← Units.val_mul, ← mul_inv, ← key]

theorem pt12_neg {x y y' : K} {h : (curve (4 : K)).Nonsingular x y} {h' : (curve (4 : K)).Nonsingular x y'} {hx hy hy'}
    (e : y' = -y) : pt12 h' hx hy' = (pt12 h hx hy).neg := by
  subst e
  refine Ext.Pt.ext rfl ?_
  change Fp12.base (-y) * _ = -(Fp12.base y * _)
  rw [map_neg, neg_mul]

/-- Opposite points. -/
theorem phi_neg12 {x y y' : K} {h : (curve (4 : K)).Nonsingular x y} {h' : (curve (4 : K)).Nonsingular x y'} {hx hy hy'}
    (e : y' = -y) (Q : E2 K) : phi (kap (pt12 h' hx hy')) Q zabs * phi (kap (pt12 h hx hy)) Q zabs = 1 := by
  rw [pt12_neg (h := h) (hy := hy) e]
  exact (pt12 h hx hy).phi_neg _ _ Q zabs

/-- Linearity in the first argument. -/
theorem eps_add_left {P R : E1 K} {Q : E2 K} (hP : q • P = 0) (hR : q • R = 0) (hQ : q • Q = 0) :
    eps (P + R) Q = eps P Q * eps R Q := by
  by_cases hQ0 : Q = 0
  · subst hQ0
    rw [eps_zero_right, eps_zero_right, eps_zero_right, mul_one]
  match P, hP, R, hR with
  | .zero, _, R, _ =>
    change eps (0 + R) Q = 1 * _
    rw [zero_add, one_mul]
  | .some x y h, _, .zero, _ =>
    change eps (Point.some x y h + 0) Q = _ * 1
    rw [add_zero, mul_one]
  | .some x₁ y₁ h₁, hP, .some x₂ y₂ h₂, hR =>
    obtain ⟨hx₁, hy₁⟩ := coords_ne hP
    obtain ⟨hx₂, hy₂⟩ := coords_ne hR
    rw [eps_val hx₁ hy₁ hQ, eps_val hx₂ hy₂ hQ, ← Units.val_mul, ← mul_inv]
    by_cases hn : x₁ = x₂ ∧ y₁ = -y₂
    · obtain ⟨rfl, e⟩ := hn
      rw [Point.add_of_Y_eq rfl (by rw [negY_curve]; exact e), phi_neg12 e, inv_one, Units.val_one, eps_zero_left]
    · have hPR := order_add hP hR
      obtain ⟨m, k, x₃, h₃, hs, -, v1, v2, w1, w2, w3, -, -⟩ := line_vieta (goodCurve1 K).two h₁ h₂ hn
      rw [hs] at hPR
      obtain ⟨hx₃, hy₃⟩ := coords_ne hPR
      have h₃' : (curve (4 : K)).Nonsingular x₃ (m * x₃ + k) := by
        have := (nonsingular_neg x₃ (-(m * x₃ + k))).2 h₃
        rwa [negY_curve, neg_neg] at this
      have hy₃' : m * x₃ + k ≠ 0 := neg_ne_zero.1 hy₃
      have ht := line12_through (h₁ := h₁) (h₂ := h₂) (h₃ := h₃') (hx₁ := hx₁) (hy₁ := hy₁) (hx₂ := hx₂) (hy₂ := hy₂)
        (hx₃ := hx₃) (hy₃ := hy₃') v1 v2 rfl w1 w2 w3
      have hlt := zabs_lt_q
      have hz := zabs_lt
      have key := (line12 m k).phi_through (goodCurve2 K).two (goodCurve2 K) frob12 (line12_rational m k) ht
        (N := zabs) (r := q) (fun x h => ext12_chi_order h) q_dvd (psi_hom hQ) zabs_pos (fun k h0 hk => by
          rw [← add_nsmul]
          exact order_smul_ne hQ hQ0 _ (by omega) (by omega))
      have hneg := phi_neg12 (h := h₃) (h' := h₃') (hx := hx₃) (hy := hy₃) (hy' := hy₃') (neg_neg _).symm Q
      rw [hs, eps_val hx₃ hy₃ hQ]
      congr 2
      rw [mul_eq_one_iff_eq_inv] at hneg key
      rw [key, hneg, inv_inv]

theorem eps_smul_left {P : E1 K} {Q : E2 K} (hP : q • P = 0) (hQ : q • Q = 0) : ∀ n : ℕ, eps (n • P) Q = eps P Q ^ n
  | 0 => by rw [zero_nsmul, pow_zero, eps_zero_left]
  | n + 1 => by
    rw [succ_nsmul, eps_add_left (by rw [nsmul_left_comm, hP, nsmul_zero]) hP hQ, eps_smul_left hP hQ n, pow_succ]

theorem eps_smul_right {P : E1 K} {Q : E2 K} (hP : q • P = 0) (hQ : q • Q = 0) : ∀ n : ℕ, eps P (n • Q) = eps P Q ^ n
  | 0 => by rw [zero_nsmul, pow_zero, eps_zero_right]
  | n + 1 => by
    rw [succ_nsmul, eps_add_right hP (by rw [nsmul_left_comm, hQ, nsmul_zero]) hQ, eps_smul_right hP hQ n, pow_succ]

end Pairing

end Bls
