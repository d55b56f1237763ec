import Mathlib.Algebra.Polynomial.Roots
import Mathlib.Data.Set.Card
import Mathlib.GroupTheory.OrderOfElement
import Mathlib.GroupTheory.Index
import Verif.Spec.MapToCurve

/-!
# Predicates met by few elements
-/

namespace Bls
open Rfc Polynomial

/-- At most `n` elements meet the predicate. -/
def Few {α : Type} (n : ℕ) (P : α → Prop) : Prop := ∃ s : Finset α, s.card ≤ n ∧ ∀ x, P x → x ∈ s

namespace Few
variable {α β : Type} {m n : ℕ} {P Q : α → Prop}

theorem mono (h : Few n Q) (h' : ∀ x, P x → Q x) : Few n P :=
  let ⟨s, h1, h2⟩ := h
  ⟨s, h1, fun x hx => h2 x (h' x hx)⟩

theorem le (h : Few n P) (h' : n ≤ m) : Few m P :=
  let ⟨s, h1, h2⟩ := h
  ⟨s, h1.trans h', h2⟩

open Classical in
theorem or (h : Few m P) (h' : Few n Q) : Few (m + n) fun x => P x ∨ Q x := by
  obtain ⟨s, h1, h2⟩ := h
  obtain ⟨t, k1, k2⟩ := h'
  refine ⟨s ∪ t, (Finset.card_union_le _ _).trans (Nat.add_le_add h1 k1), fun x hx => Finset.mem_union.2 ?_⟩
  exact hx.imp (h2 x) (k2 x)

open Classical in
theorem bind {R : α → β → Prop} (h : Few m P) (h' : ∀ a, P a → Few n (R a)) : Few (m * n) fun b => ∃ a, P a ∧ R a b := by
  obtain ⟨s, h1, h2⟩ := h
  let t : α → Finset β := fun a => if ha : P a then (h' a ha).choose else ∅
  have ht : ∀ a (ha : P a), (t a).card ≤ n ∧ ∀ b, R a b → b ∈ t a := fun a ha => by
    have := (h' a ha).choose_spec
    simp only [t, dif_pos ha]
    exact this
  refine ⟨s.biUnion t, (Finset.card_biUnion_le_card_mul s t n fun a _ => ?_).trans (Nat.mul_le_mul_right n h1), ?_⟩
  · by_cases ha : P a
    · exact (ht a ha).1
    · simp [t, ha]
  · rintro b ⟨a, ha, hb⟩
    exact Finset.mem_biUnion.2 ⟨a, h2 a ha, (ht a ha).2 b hb⟩

open Classical in
theorem inj {R : β → Prop} (h : Few n P) (g : β → α) (hg : ∀ b, R b → P (g b)) (hi : ∀ b b', R b → R b' → g b = g b' → b = b') :
    Few n R := by
  obtain ⟨s, h1, h2⟩ := h
  have hf : {b | R b}.Finite := by
    refine Set.Finite.of_finite_image (f := g) (s.finite_toSet.subset ?_) fun b hb b' hb' e => hi b b' hb hb' e
    rintro _ ⟨b, hb, rfl⟩
    exact h2 _ (hg b hb)
  refine ⟨hf.toFinset, ?_, fun b hb => hf.mem_toFinset.2 hb⟩
  refine (Finset.card_le_card_of_injOn g (fun b hb => ?_) fun b hb b' hb' e => ?_).trans h1
  · exact h2 _ (hg b (hf.mem_toFinset.1 hb))
  · exact hi b b' (hf.mem_toFinset.1 hb) (hf.mem_toFinset.1 hb') e

theorem one (a : α) : Few 1 fun x => x = a := ⟨{a}, by simp, fun x h => by simp [h]⟩

theorem none (h : ∀ x, ¬ P x) : Few 0 P := ⟨∅, by simp, fun x hx => (h x hx).elim⟩

theorem ncard (h : Few n P) : {x | P x}.ncard ≤ n := by
  obtain ⟨s, h1, h2⟩ := h
  refine (Set.ncard_le_ncard (t := (s : Set α)) (fun x hx => h2 x hx) s.finite_toSet).trans ?_
  rwa [Set.ncard_coe_finset]

theorem of_card [Finite α] (h : Nat.card α ≤ n) (P : α → Prop) : Few n P := by
  have := Fintype.ofFinite α
  refine ⟨Finset.univ, ?_, fun x _ => Finset.mem_univ x⟩
  rwa [Finset.card_univ, ← Nat.card_eq_fintype_card]

theorem of_ncard (hf : {x | P x}.Finite) (h : {x | P x}.ncard ≤ n) : Few n P :=
  ⟨hf.toFinset, by rwa [← Set.ncard_eq_toFinset_card _ hf], fun x hx => hf.mem_toFinset.2 hx⟩

end Few

variable {F : Type} [Field F]

theorem few_roots {n : ℕ} (f : F[X]) (h0 : f ≠ 0) (hd : f.natDegree ≤ n) : Few n fun x => f.eval x = 0 := by
  classical
  refine ⟨f.roots.toFinset, (Multiset.toFinset_card_le _).trans ((card_roots' f).trans hd), fun x hx => ?_⟩
  rw [Multiset.mem_toFinset, mem_roots h0]
  exact hx

/-- The polynomial of `polyVal`. -/
noncomputable def toPoly : List F → F[X]
  | [] => 0
  | c :: cs => C c + X * toPoly cs

theorem eval_toPoly (x : F) : ∀ l : List F, (toPoly l).eval x = polyVal l x
  | [] => eval_zero
  | c :: cs => by rw [toPoly, eval_add, eval_C, eval_mul, eval_X, eval_toPoly x cs, polyVal]

theorem coeff_toPoly : ∀ (l : List F) (i : ℕ), (toPoly l).coeff i = l.getD i 0
  | [], i => by simp [toPoly]
  | c :: cs, 0 => by simp [toPoly]
  | c :: cs, i + 1 => by
    rw [toPoly, coeff_add, coeff_C_succ, zero_add, coeff_X_mul, coeff_toPoly cs i]
    simp

theorem getD_default (l : List F) {i : ℕ} (h : l.length ≤ i) : l.getD i 0 = 0 := by
  rw [List.getD_eq_getElem?_getD, List.getElem?_eq_none h, Option.getD_none]

theorem few_ratio {n : ℕ} (num den : List F) (hn : num.length = n + 1) (hd : den.length ≤ n) (h0 : num.getD n 0 ≠ 0) (a : F) :
    Few n fun x => polyVal num x = a * polyVal den x := by
  have hc : ∀ i, (toPoly num - C a * toPoly den).coeff i = num.getD i 0 - a * den.getD i 0 := fun i => by
    rw [coeff_sub, coeff_C_mul, coeff_toPoly, coeff_toPoly]
  refine (few_roots (toPoly num - C a * toPoly den) (fun e => h0 ?_) ?_).mono fun x hx => ?_
  · have := hc n
    rw [e, coeff_zero, getD_default den hd, mul_zero, sub_zero] at this
    exact this.symm
  · rw [natDegree_le_iff_coeff_eq_zero]
    intro i hi
    rw [hc, getD_default num (by omega), getD_default den (by omega), mul_zero, sub_zero]
  · rw [eval_sub, eval_mul, eval_C, eval_toPoly, eval_toPoly, hx, sub_self]

theorem few_list (l : List F) (i : ℕ) (h0 : l.getD i 0 ≠ 0) : Few (l.length - 1) fun x => polyVal l x = 0 := by
  refine (few_roots (toPoly l) (fun e => h0 ?_) ?_).mono fun x hx => (eval_toPoly x l).trans hx
  · rw [← coeff_toPoly, e, coeff_zero]
  · rw [natDegree_le_iff_coeff_eq_zero]
    intro i hi
    rw [coeff_toPoly, getD_default l (by omega)]

theorem few_square (a : F) : Few 2 fun x => x ^ 2 = a :=
  (few_list [-a, 0, 1] 2 (by simp)).mono fun x hx => by
    simp only [polyVal]
    rw [← hx]
    ring

/-! ## The simplified SWU map -/

variable {A B Z : F} {odd : F → Prop}

theorem few_exceptional (hZ : Z ≠ 0) : Few 3 fun t : F => Z ^ 2 * t ^ 4 + Z * t ^ 2 = 0 := by
  refine ((Few.one 0).or (few_square (-1 / Z))).mono fun t ht => ?_
  have : t ^ 2 * (Z * t ^ 2 + 1) = 0 := by
    refine (mul_eq_zero.1 (show Z * (t ^ 2 * (Z * t ^ 2 + 1)) = 0 by linear_combination ht)).resolve_left hZ
  rcases mul_eq_zero.1 this with h | h
  · exact Or.inl (pow_eq_zero_iff (by decide) |>.1 h)
  · right
    rw [eq_div_iff hZ]
    linear_combination h

/-- The squares of the elements with a given first coordinate. -/
theorem few_sswu_x (hA : A ≠ 0) (hB : B ≠ 0) (x : F) :
    Few 4 fun w : F => ∃ t y, Z ^ 2 * t ^ 4 + Z * t ^ 2 ≠ 0 ∧ IsSswu A B Z odd t x y ∧ w = Z * t ^ 2 := by
  have h1 : Few 2 fun w : F => polyVal [B, A * x + B, A * x + B] w = 0 := few_list [B, A * x + B, A * x + B] 0 (by simpa using hB)
  have h2 : Few 2 fun w : F => polyVal [A * x + B, A * x + B, B] w = 0 := few_list [A * x + B, A * x + B, B] 2 (by simpa using hB)
  refine (h1.or h2).mono ?_
  rintro w ⟨t, y, ht, ⟨hx, -, -⟩, rfl⟩
  rw [if_neg ht] at hx
  have hw : Z ^ 2 * t ^ 4 + Z * t ^ 2 = (Z * t ^ 2) * (Z * t ^ 2 + 1) := by ring
  simp only [polyVal]
  rw [hw] at hx ht
  generalize Z * t ^ 2 = w at hx ht ⊢
  have hw0 : w ≠ 0 := left_ne_zero_of_mul ht
  have hw1 : w + 1 ≠ 0 := right_ne_zero_of_mul ht
  split_ifs at hx
  · left
    rw [hx]
    field_simp
    ring
  · right
    rw [hx]
    field_simp
    ring

/-- The elements with a given first coordinate and a given sign. -/
theorem few_sswu (hA : A ≠ 0) (hB : B ≠ 0) (hZ : Z ≠ 0) (hneg : ∀ x : F, x ≠ 0 → (odd (-x) ↔ ¬ odd x)) (x : F) (s : Prop) :
    Few 4 fun t : F => Z ^ 2 * t ^ 4 + Z * t ^ 2 ≠ 0 ∧ ∃ y, IsSswu A B Z odd t x y ∧ (odd y ↔ s) := by
  refine (few_sswu_x (Z := Z) (odd := odd) hA hB x).inj (fun t => Z * t ^ 2) ?_ ?_
  · rintro t ⟨ht, y, h, -⟩
    exact ⟨t, y, ht, h, rfl⟩
  · rintro t t' ⟨ht, y, h, hs⟩ ⟨ht', y', h', hs'⟩ e
    have h5 : (t - t') * (t + t') = 0 := by
      have := mul_left_cancel₀ hZ e
      linear_combination this
    rcases mul_eq_zero.1 h5 with h6 | h6
    · exact sub_eq_zero.1 h6
    · have hy : t = -t' := eq_neg_of_add_eq_zero_left h6
      have h0 : t' ≠ 0 := by
        rintro rfl
        exact ht' (by ring)
      have := hneg t' h0
      rw [← hy] at this
      have k1 := h.2.2
      have k2 := h'.2.2
      tauto

/-- The elements sent to a given finite point. -/
theorem few_map {n : ℕ} (hA : A ≠ 0) (hB : B ≠ 0) (hZ : Z ≠ 0) (hneg : ∀ x : F, x ≠ 0 → (odd (-x) ↔ ¬ odd x)) {b : F}
    (xNum xDen yNum yDen : List F) (hn : xNum.length = n + 1) (hd : xDen.length ≤ n) (h0 : xNum.getD n 0 ≠ 0)
    (X Y : F) (hXY : (curve b).Nonsingular X Y) (hY : Y ≠ 0) :
    Few (n * 4 + 3) fun t : F => ∃ x y, IsSswu A B Z odd t x y ∧ IsIso xNum xDen yNum yDen x y (.some X Y hXY) := by
  have h1 := (few_ratio xNum xDen hn hd h0 X).bind (R := fun x t => Z ^ 2 * t ^ 4 + Z * t ^ 2 ≠ 0 ∧
    ∃ y, IsSswu A B Z odd t x y ∧ (odd y ↔ odd (Y / (polyVal yNum x / polyVal yDen x))))
    fun x _ => few_sswu hA hB hZ hneg x _
  refine (h1.or (few_exceptional hZ)).mono ?_
  rintro t ⟨x, y, hs, hi⟩
  by_cases ht : Z ^ 2 * t ^ 4 + Z * t ^ 2 = 0
  · exact Or.inr ht
  left
  rcases hi with ⟨-, e⟩ | ⟨hD, hD', h, e⟩
  · cases e
  · injection e with e1 e2
    refine ⟨x, ?_, ht, y, hs, ?_⟩
    · rw [e1, div_mul_cancel₀ _ hD]
    · have hr : polyVal yNum x / polyVal yDen x ≠ 0 := fun h => hY (by rw [e2, h, mul_zero])
      rw [e2, mul_div_assoc, div_self hr, mul_one]

/-! ## Multiplication in a group -/

theorem few_mul {G : Type} [AddCommGroup G] [Finite G] {q h c : ℕ} (hq : q.Prime) (hc : Nat.card G = h * q) {g : G}
    (hg : q • g = 0) (hg0 : c • g ≠ 0) (Q : G) : Few h fun P : G => c • P = Q := by
  have hcq : Nat.Coprime c q := by
    rw [Nat.coprime_comm, hq.coprime_iff_not_dvd]
    rintro ⟨k, rfl⟩
    exact hg0 (by rw [mul_nsmul, hg, nsmul_zero])
  have hgo : addOrderOf g = q := by
    have := Fact.mk hq
    refine addOrderOf_eq_prime hg ?_
    rintro rfl
    exact hg0 (nsmul_zero c)
  let f : G →+ G := nsmulAddMonoidHom c
  have hr : q ≤ Nat.card f.range := by
    have hle : AddSubgroup.zmultiples g ≤ f.range := by
      rw [AddSubgroup.zmultiples_le]
      obtain ⟨i, _, hi⟩ := Nat.exists_mul_mod_eq_one_of_coprime hcq hq.one_lt
      refine ⟨i • g, ?_⟩
      change c • i • g = g
      rw [smul_smul, ← Nat.mod_add_div (c * i) q, hi, add_nsmul, one_nsmul, mul_nsmul, hg, nsmul_zero, add_zero]
    rw [← hgo, ← Nat.card_zmultiples]
    exact Nat.card_le_card_of_injective (Set.inclusion hle) (Set.inclusion_injective hle)
  have hk : Nat.card f.ker ≤ h := by
    have h1 : Nat.card f.ker * Nat.card f.range = Nat.card G := by
      rw [← AddSubgroup.index_ker, AddSubgroup.card_mul_index]
    rw [hc] at h1
    refine Nat.le_of_mul_le_mul_right ?_ hq.pos
    rw [← h1]
    exact Nat.mul_le_mul_left _ hr
  by_cases hQ : ∃ P0, c • P0 = Q
  · obtain ⟨P0, rfl⟩ := hQ
    have : Few h fun P : f.ker => True := Few.of_card hk _
    have h2 : Few h fun P : G => P ∈ f.ker := by
      obtain ⟨s, h1, h2⟩ := this
      refine ⟨s.map ⟨Subtype.val, Subtype.val_injective⟩, by rwa [Finset.card_map], fun x hx => ?_⟩
      exact Finset.mem_map.2 ⟨⟨x, hx⟩, h2 _ trivial, rfl⟩
    refine h2.inj (fun P => P - P0) (fun P hP => ?_) fun P P' _ _ e => sub_left_injective e
    change c • (P - P0) = 0
    rw [nsmul_sub, hP, sub_self]
  · exact (Few.none fun P hP => hQ ⟨P, hP⟩).le (Nat.zero_le _)

end Bls
