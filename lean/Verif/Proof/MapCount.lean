import Verif.Proof.Few
import Verif.Proof.Exc1
import Verif.Proof.Balance
import Verif.Model.HashPoint

/-!
# How many field elements and byte strings are sent to one point
-/

namespace Bls
open Rfc
attribute [local irreducible] p q hEff1 hEff2

variable {K : Type} [Field K] [FpOps K] [LawfulFp K] [DecidableEq K]

/-- The cofactors. -/
def h1 : ℕ := 0x396c8c005555e1568c00aaab0000aaab
def h2 : ℕ :=
  0x5d543a95414e7f1091d50792876a202cd91de4547085abaa68a205b2e5a7ddfa628f1cb4d9e82ef21537e293a6691ae1616ec6e786f0c70cf1c38e31c7238e5

theorem card1 : Nat.card (E1 K) = h1 * q := (E1_card K).trans (by decide +kernel)
theorem card2' : Nat.card (E2 K) = h2 * q := (E2_card K).trans (by decide +kernel)

/-! ## The points of order two and three -/

theorem y1_ne_zero {X Y : K} (h : (curve (4 : K)).Nonsingular X Y) : Y ≠ 0 := by
  rintro rfl
  have h4 : ((4 : ℕ) : K) ≠ 0 := natCast_ne_zero (by unfold p; decide +kernel)
  refine not_cube (n := 4) (by unfold p; decide +kernel) h4 (-X) ?_
  have := point_equation h
  rw [Odd.neg_pow (by decide)]
  push_cast
  linear_combination this

theorem y2_ne_zero {X Y : Fp2 K} (h : (curve (4 * Fp2.xi : Fp2 K)).Nonsingular X Y) : Y ≠ 0 := by
  rintro rfl
  have h32 : ((32 : ℕ) : K) ≠ 0 := natCast_ne_zero (by unfold p; decide +kernel)
  have e := point_equation h
  have hc : X ^ 3 = -(4 * Fp2.xi) := by linear_combination -e
  refine not_cube (n := 32) (by unfold p; decide +kernel) h32 X.norm ?_
  rw [← Fp2.norm_pow, hc, four_xi, Fp2.norm, Fp2.neg_c0, Fp2.neg_c1]
  change -((4 : ℕ) : K) * -((4 : ℕ) : K) + -((4 : ℕ) : K) * -((4 : ℕ) : K) = _
  norm_num

/-- No element of `fp2` is sent to infinity by the isogeny. -/
theorem map2_ne_zero {t : Fp2 K} (h : IsMap2 t 0) : False := by
  obtain ⟨x, y, hs, hi⟩ := h
  rcases hi with ⟨hd, -⟩ | ⟨_, _, _, e⟩
  · rw [xDen2_val, yDen2_val, pow_eq_zero_iff (by decide), pow_eq_zero_iff (by decide), or_self, ker2_eq, sub_eq_zero] at hd
    have h1 := hs.2.1
    rw [hd, ← cubicNat_cast] at h1
    refine nonsquare_of_norm (x := castN2 K (cubicNat ⟨Nat.sub p 6, (6 : ℕ)⟩)) ?_ ⟨y, by rw [← h1]; ring⟩
    have e4 : castN2 K (cubicNat ⟨Nat.sub p 6, (6 : ℕ)⟩) = ⟨((4 : ℕ) : K), ((4 : ℕ) : K)⟩ := by
      rw [← castN2_mk]
      exact N2eq (by unfold p; decide +kernel)
    have hn : (⟨((4 : ℕ) : K), ((4 : ℕ) : K)⟩ : Fp2 K).norm = ((32 : ℕ) : K) := by
      simp only [Fp2.norm]; norm_num
    rw [e4, hn]
    exact nat_nonsquare (by unfold p; decide +kernel) (natCast_ne_zero (by unfold p; decide +kernel))
  · cases e

theorem few_map2 (P : E2 K) : Few 15 fun t : Fp2 K => IsMap2 t P := by
  match P with
  | .zero => exact (Few.none fun t h => map2_ne_zero h).le (by decide)
  | .some X Y h =>
    refine few_map (n := 3) (swuGood2 K).a0 ?_ (swuGood2 K).z0 odd2_neg (xNum2.map pair) _ _ _ rfl (by rw [List.length_map]; decide) ?_ X Y h (y2_ne_zero h)
    · intro e
      refine natCast_ne_zero (K := K) (n := 1012) (by unfold p; decide +kernel) ?_
      rw [Nat.cast_ofNat]
      exact congrArg Fp2.c0 e
    · intro e
      refine natCast_ne_zero (K := K)
        (n := 0x171d6541fa38ccfaed6dea691f5fb614cb14b4e7f4e810aa22d6108f142b85757098e38d0f671c7188e2aaaaaaaa5ed1)
        (by unfold p; decide +kernel) ?_
      exact congrArg Fp2.c0 e

theorem few_map1 (P : E1 K) (hP : P ≠ 0) : Few 47 fun t : K => IsMap1 t P := by
  match P, hP with
  | .some X Y h, _ =>
    refine few_map (n := 11) (swuGood1 K).a0 ?_ (swuGood1 K).z0 odd1_neg (xNum1.map Nat.cast) _ _ _ rfl (by rw [List.length_map]; decide) ?_ X Y h (y1_ne_zero h)
    · exact natCast_ne_zero (by unfold p; decide +kernel)
    · exact natCast_ne_zero
        (n := 0x6e08c248e260e70bd1e962381edee3d31d79d7e22c837bc23c0bf1bc24c6b68c24b1b80b64d391fa9c8ba2e8ba2d229)
        (by unfold p; decide +kernel)

/-! ## Field elements -/

theorem few_mapToCurve2 (Q : E2 K) : Few (h2 * 15) fun t : Fp2 K => ∃ P, hEff2 • P = Q ∧ IsMap2 t P := by
  have := E2_finite K
  exact (few_mul q_prime card2' (q_smul_gen2 K) (hEff_gen K).2 Q).bind fun P _ => few_map2 P

theorem few_mapToCurve1 (Q : E1 K) : Few (h1 * 47) fun t : K => ∃ P, hEff1 • P = Q ∧ P ≠ 0 ∧ IsMap1 t P := by
  have := E1_finite K
  refine (few_mul q_prime card1 (q_smul_gen1 K) (hEff_gen K).1 Q).bind fun P _ => ?_
  by_cases hP : P = 0
  · exact (Few.none fun t h => h.1 hP).le (Nat.zero_le _)
  · exact (few_map1 P hP).mono fun t h => h.2

theorem few_equal2 (a : G2 K) (ha : a.isOnCurve Fp2.B = true) : Few (h2 * 15) fun t => (G2.mapToCurve t).equal a = true := by
  obtain ⟨Q, hQ⟩ := G2.onCurve_iff.1 ha
  refine (few_mapToCurve2 Q).mono fun t ht => ?_
  obtain ⟨P, hP, hr⟩ := map2 t
  have h := clear_rep_eff.2 _ _ hr
  exact ⟨P, (Jac.equal_iff h hQ).1 ht, hP⟩

theorem few_exceptions : Few 16 fun t : K => ∃ n ∈ exceptions1, t = (n : K) := by
  refine ⟨(exceptions1.map (Nat.cast : ℕ → K)).toFinset, (List.toFinset_card_le _).trans ?_, ?_⟩
  · rw [List.length_map]
    decide
  · rintro t ⟨n, hn, rfl⟩
    rw [List.mem_toFinset]
    exact List.mem_map_of_mem hn

theorem few_equal1 (a : G1 K) (ha : a.isOnCurve FpC.B = true) : Few (h1 * 47 + 16) fun t => (G1.mapToCurve t).equal a = true := by
  obtain ⟨Q, hQ⟩ := G1.onCurve_iff.1 ha
  refine ((few_mapToCurve1 Q).or few_exceptions).mono fun t ht => ?_
  by_cases hk : ker1 (G1.swuMapG1 t).1 = 0
  · exact Or.inr ((Exc.kernel_iff t).1 hk)
  left
  obtain ⟨P, hP, hr⟩ := iso1 (swu1 t).2.1 hk
  have h := clear_rep_eff.1 _ _ hr
  refine ⟨P, ?_, ?_, _, _, swu1 t, hP⟩
  · refine (Jac.equal_iff h hQ).1 ?_
    rw [G1.mapToCurve, LawfulOps.one_eq] at ht
    exact ht
  · rintro rfl
    exact one_ne_zero hr

/-! ## Byte strings -/

theorem Few.prod {α β : Type} {m n : ℕ} {P : α → Prop} {Q : β → Prop} (h : Few m P) (h' : Few n Q) :
    Few (m * n) fun x : α × β => P x.1 ∧ Q x.2 := by
  obtain ⟨s, h1, h2⟩ := h
  obtain ⟨t, k1, k2⟩ := h'
  exact ⟨s ×ˢ t, by rw [Finset.card_product]; exact Nat.mul_le_mul h1 k1, fun x hx => Finset.mem_product.2 ⟨h2 _ hx.1, k2 _ hx.2⟩⟩

theorem few_pairs (Q : E2 K) : Few (p * p * (h2 * 15)) fun x : Fp2 K × Fp2 K =>
    ∃ P0 P1, IsMap2 x.1 P0 ∧ IsMap2 x.2 P1 ∧ hEff2 • (P0 + P1) = Q := by
  have : Finite (Fp2 K) := by
    have := IsFp.finite K
    exact Finite.of_injective (fun x : Fp2 K => (x.c0, x.c1)) fun x y h => Fp2.ext (congrArg Prod.fst h) (congrArg Prod.snd h)
  have h := (Few.of_card (Fp2.card_le K) fun _ : Fp2 K => True).bind
    (R := fun t (x : Fp2 K × Fp2 K) => x.1 = t ∧ ∃ P0 P1, IsMap2 x.1 P0 ∧ IsMap2 x.2 P1 ∧ hEff2 • (P0 + P1) = Q) fun t _ => by
      obtain ⟨P0, h0, -⟩ := map2 t
      refine (few_mapToCurve2 (Q - hEff2 • P0)).inj Prod.snd ?_ ?_
      · rintro x ⟨rfl, P, P1, hP, hP1, e⟩
        rw [map2_unique hP h0] at e
        exact ⟨P1, by rw [← e, nsmul_add, add_sub_cancel_left], hP1⟩
      · rintro x y ⟨hx, -⟩ ⟨hy, -⟩ e
        exact Prod.ext (hx.trans hy.symm) e
  exact h.mono fun x hx => ⟨x.1, trivial, rfl, hx⟩

theorem few_string (c : K) : Few (2 ^ 512 / p + 1) fun bs : List UInt8 => bs.length = 64 ∧ (beVal bs : K) = c := by
  obtain ⟨v, hv, rfl⟩ := FpC.exists_nat c
  have h := strings_balanced 64 p v p_prime.pos hv
  rw [show 256 ^ 64 = 2 ^ 512 by decide +kernel] at h
  have h0 : 2 ^ 512 / p ≠ 0 := by unfold p; decide +kernel
  generalize 2 ^ 512 / p = N at h h0 ⊢
  have hf : {bs : List UInt8 | bs.length = 64 ∧ beVal bs % p = v}.Finite := by
    refine Set.finite_of_ncard_ne_zero ?_
    rcases h with h | h <;> rw [h]
    · exact h0
    · exact Nat.succ_ne_zero _
  refine (Few.of_ncard hf ?_).mono fun bs hb => ⟨hb.1, ?_⟩
  · rcases h with h | h <;> rw [h]
    exact Nat.le_succ _
  · have := IsFp.natCast_eq_iff.1 hb.2
    rwa [Nat.mod_eq_of_lt hv] at this

theorem chunks_eq {a b : List UInt8} (ha : a.length = 256) (hb : b.length = 256)
    (h : ∀ j < 4, (a.drop (64 * j)).take 64 = (b.drop (64 * j)).take 64) : a = b := by
  have e : ∀ l : List UInt8, l.length = 256 → l = (l.drop (64 * 0)).take 64 ++ ((l.drop (64 * 1)).take 64 ++
      ((l.drop (64 * 2)).take 64 ++ (l.drop (64 * 3)).take 64)) := fun l hl => by
    have h3 : (l.drop (64 * 3)).take 64 = l.drop 192 := List.take_of_length_le (by rw [List.length_drop]; omega)
    have h2 : (l.drop (64 * 2)).take 64 ++ l.drop 192 = l.drop 128 := by
      rw [show (192 : ℕ) = 128 + 64 from rfl, ← List.drop_drop]; exact List.take_append_drop 64 _
    have h1 : (l.drop (64 * 1)).take 64 ++ l.drop 128 = l.drop 64 := by
      rw [show (128 : ℕ) = 64 + 64 from rfl, ← List.drop_drop]; exact List.take_append_drop 64 _
    rw [h3, h2, h1]
    exact (List.take_append_drop 64 l).symm
  rw [e a ha, e b hb, h 0 (by decide), h 1 (by decide), h 2 (by decide), h 3 (by decide)]

theorem few_buffers (c0 c1 c2 c3 : K) : Few ((2 ^ 512 / p + 1) ^ 4) fun bs : List UInt8 => bs.length = 256 ∧
    fieldComponent bs 0 = c0 ∧ fieldComponent bs 1 = c1 ∧ fieldComponent bs 2 = c2 ∧ fieldComponent bs 3 = c3 := by
  have h := ((few_string c0).prod (few_string c1)).prod ((few_string c2).prod (few_string c3))
  have e : (2 ^ 512 / p + 1) ^ 4 = (2 ^ 512 / p + 1) * (2 ^ 512 / p + 1) * ((2 ^ 512 / p + 1) * (2 ^ 512 / p + 1)) := by
    generalize 2 ^ 512 / p + 1 = n
    ring
  rw [e]
  refine h.inj (fun l => (((l.drop (64 * 0)).take 64, (l.drop (64 * 1)).take 64),
    ((l.drop (64 * 2)).take 64, (l.drop (64 * 3)).take 64))) ?_ ?_
  · rintro bs ⟨hl, h0, h1, h2, h3⟩
    have hlen : ∀ j < 4, ((bs.drop (64 * j)).take 64).length = 64 := fun j hj => by
      rw [List.length_take, List.length_drop]; omega
    exact ⟨⟨⟨hlen 0 (by decide), h0⟩, hlen 1 (by decide), h1⟩, ⟨hlen 2 (by decide), h2⟩, hlen 3 (by decide), h3⟩
  · rintro a b ⟨ha, -⟩ ⟨hb, -⟩ e
    simp only [Prod.mk.injEq] at e
    refine chunks_eq ha hb fun j hj => ?_
    match j, hj with
    | 0, _ => exact e.1.1
    | 1, _ => exact e.1.2
    | 2, _ => exact e.2.1
    | 3, _ => exact e.2.2

theorem hashPoint_rep {bs : List UInt8} (hl : bs.length = 256) : ∃ (a : G2 K) (P0 P1 : E2 K), Sig.hashPoint bs = some a ∧
    IsMap2 ⟨fieldComponent bs 0, fieldComponent bs 1⟩ P0 ∧ IsMap2 ⟨fieldComponent bs 2, fieldComponent bs 3⟩ P1 ∧
    a.Rep (hEff2 • (P0 + P1)) := by
  obtain ⟨P0, m0, r0⟩ := Sig.mapPoint_rep (K := K) ⟨fieldComponent bs 0, fieldComponent bs 1⟩
  obtain ⟨P1, m1, r1⟩ := Sig.mapPoint_rep (K := K) ⟨fieldComponent bs 2, fieldComponent bs 3⟩
  refine ⟨_, P0, P1, ?_, m0, m1, clear_rep_eff.2 _ _ (Jac.add_rep (goodCurve2 K) r0 r1)⟩
  have e0 := Sig.fieldElement_eq (K := K) bs hl 0 (by decide)
  have e1 := Sig.fieldElement_eq (K := K) bs hl 1 (by decide)
  have e2 := Sig.fieldElement_eq (K := K) bs hl 2 (by decide)
  have e3 := Sig.fieldElement_eq (K := K) bs hl 3 (by decide)
  rw [Sig.hashPoint, show (0 : ℕ) = 64 * 0 from rfl, show (64 : ℕ) = 64 * 1 from rfl, show (128 : ℕ) = 64 * 2 from rfl,
    show (192 : ℕ) = 64 * 3 from rfl, e0, e1, e2, e3]
  rfl

theorem few_hashPoint (a : G2 K) (ha : a.isOnCurve Fp2.B = true) : Few (p * p * (h2 * 15) * (2 ^ 512 / p + 1) ^ 4)
    fun bs : List UInt8 => bs.length = 256 ∧ ∃ b : G2 K, Sig.hashPoint bs = some b ∧ b.equal a = true := by
  obtain ⟨Q, hQ⟩ := G2.onCurve_iff.1 ha
  refine ((few_pairs Q).bind (R := fun x bs => bs.length = 256 ∧
    fieldComponent bs 0 = x.1.c0 ∧ fieldComponent bs 1 = x.1.c1 ∧ fieldComponent bs 2 = x.2.c0 ∧ fieldComponent bs 3 = x.2.c1)
    fun x _ => few_buffers _ _ _ _).mono ?_
  rintro bs ⟨hl, b, hb, he⟩
  obtain ⟨b', P0, P1, hb', m0, m1, hr⟩ := hashPoint_rep (K := K) hl
  obtain rfl : b = b' := Option.some.inj (hb.symm.trans hb')
  exact ⟨(⟨fieldComponent bs 0, fieldComponent bs 1⟩, ⟨fieldComponent bs 2, fieldComponent bs 3⟩),
    ⟨P0, P1, m0, m1, (Jac.equal_iff hr hQ).1 he⟩, hl, rfl, rfl, rfl, rfl⟩

/-! ## The points that are reached -/

theorem Few.card {α : Type} {n : ℕ} (h : Few n fun _ : α => True) : Nat.card α ≤ n := by
  obtain ⟨s, h1, h2⟩ := h
  have e : (Set.univ : Set α) = s := (Set.eq_univ_of_forall fun x => h2 x trivial).symm
  rw [← Set.ncard_univ, e, Set.ncard_coe_finset]
  exact h1

theorem reached2 : Nat.card (Fp2 K) ≤ {P : E2 K | ∃ t, (G2.mapToCurve t).Rep P}.ncard * (h2 * 15) := by
  have := E2_finite K
  have hS : Few {P : E2 K | ∃ t, (G2.mapToCurve t).Rep P}.ncard fun P : E2 K => ∃ t, (G2.mapToCurve t).Rep P :=
    Few.of_ncard (Set.toFinite _) le_rfl
  refine ((hS.bind fun Q _ => few_mapToCurve2 Q).mono fun t _ => ?_).card
  obtain ⟨P, hP, hr⟩ := map2 t
  exact ⟨hEff2 • P, ⟨t, clear_rep_eff.2 _ _ hr⟩, P, rfl, hP⟩

theorem reached1 : Nat.card K ≤ {P : E1 K | ∃ t, (G1.mapToCurve t).Rep P}.ncard * (h1 * 47) + 16 := by
  have := E1_finite K
  have hS : Few {P : E1 K | ∃ t, (G1.mapToCurve t).Rep P}.ncard fun P : E1 K => ∃ t, (G1.mapToCurve t).Rep P :=
    Few.of_ncard (Set.toFinite _) le_rfl
  refine (((hS.bind fun Q _ => few_mapToCurve1 Q).or few_exceptions).mono fun t _ => ?_).card
  by_cases hk : ker1 (G1.swuMapG1 t).1 = 0
  · exact Or.inr ((Exc.kernel_iff t).1 hk)
  left
  obtain ⟨P, hP, hr⟩ := iso1 (swu1 t).2.1 hk
  have h := clear_rep_eff.1 _ _ hr
  refine ⟨hEff1 • P, ⟨t, ?_⟩, P, rfl, ?_, _, _, swu1 t, hP⟩
  · rw [G1.mapToCurve, LawfulOps.one_eq]
    exact h
  · rintro rfl
    exact one_ne_zero hr

end Bls
