import Verif.Model.Order
import Verif.Spec.Order
import Verif.Proof.FpConv
import Mathlib.Order.Compare

/-!
# The comparison operators are strict total orders on the stored words
-/

namespace Bls

theorem cmpWord_step (a b : UInt64) {u v B : ℕ} (hu : u < B) (hv : v < B) :
    cmpWord a b (compare u v) = compare (u + B * a.toNat) (v + B * b.toNat) := by
  have key : ∀ {s t x y : ℕ}, s < t → x < B → x + B * s < y + B * t := fun {s t x y} h hx => by
    have := Nat.mul_le_mul_left B (show s + 1 ≤ t from h)
    rw [Nat.mul_add, Nat.mul_one] at this
    omega
  unfold cmpWord
  rcases Nat.lt_trichotomy a.toNat b.toNat with h | h | h
  · rw [if_pos (UInt64.lt_iff_toNat_lt.2 h), Nat.compare_eq_lt.2 (key h hu)]
  · have e : a = b := UInt64.toNat_inj.1 h
    subst e
    rw [if_neg (UInt64.lt_irrefl a), if_neg (UInt64.lt_irrefl a)]
    rcases Nat.lt_trichotomy u v with h | h | h
    · rw [Nat.compare_eq_lt.2 h, Nat.compare_eq_lt.2 (by omega)]
    · rw [Nat.compare_eq_eq.2 h, Nat.compare_eq_eq.2 (by rw [h])]
    · rw [Nat.compare_eq_gt.2 h, Nat.compare_eq_gt.2 (by omega)]
  · rw [if_neg (fun h' => by rw [UInt64.lt_iff_toNat_lt] at h'; omega), if_pos (UInt64.lt_iff_toNat_lt.2 h),
      Nat.compare_eq_gt.2 (key h hv)]

theorem Fp.cmp_eq (x y : Fp) : x.cmp y = compare x.val y.val := by
  have h0 := u64_lt x.d0; have h1 := u64_lt x.d1; have h2 := u64_lt x.d2
  have h3 := u64_lt x.d3; have h4 := u64_lt x.d4
  have g0 := u64_lt y.d0; have g1 := u64_lt y.d1; have g2 := u64_lt y.d2
  have g3 := u64_lt y.d3; have g4 := u64_lt y.d4
  have e : Ordering.eq = compare 0 0 := rfl
  unfold Fp.cmp
  rw [e, cmpWord_step (B := 1) _ _ (by omega) (by omega), cmpWord_step (B := 2 ^ 64) _ _ (by omega) (by omega),
    cmpWord_step (B := 2 ^ 128) _ _ (by omega) (by omega), cmpWord_step (B := 2 ^ 192) _ _ (by omega) (by omega),
    cmpWord_step (B := 2 ^ 256) _ _ (by omega) (by omega), cmpWord_step (B := 2 ^ 320) _ _ (by omega) (by omega)]
  congr 1 <;> unfold Fp.val <;> omega

theorem Fp.strongOrder : IsStrongOrder Fp.cmp Fp.eqOp where
  eq_iff x y := by
    rw [Fp.cmp_eq, Nat.compare_eq_eq]
    exact ⟨Fp.val_inj, fun h => by rw [h]⟩
  swap x y := by rw [Fp.cmp_eq, Fp.cmp_eq, Nat.compare_eq_lt, Nat.compare_eq_gt]
  trans x y z := by
    rw [Fp.cmp_eq, Fp.cmp_eq, Fp.cmp_eq, Nat.compare_eq_lt, Nat.compare_eq_lt, Nat.compare_eq_lt]
    exact Nat.lt_trans
  eqOp x y := by
    rw [Fp.eqOp, beq_iff_eq, Fp.cmp_eq, Nat.compare_eq_eq]
    exact ⟨Fp.val_inj, fun h => by rw [h]⟩

theorem FpV.strongOrder {adx : Bool} : IsStrongOrder (FpV.cmp (adx := adx)) FpV.eqOp where
  eq_iff x y := (Fp.strongOrder.eq_iff x.1 y.1).trans ⟨FpV.ext, fun h => by rw [h]⟩
  swap x y := Fp.strongOrder.swap x.1 y.1
  trans x y z := Fp.strongOrder.trans x.1 y.1 z.1
  eqOp x y := (Fp.strongOrder.eqOp x.1 y.1).trans ⟨FpV.ext, fun h => by rw [h]⟩

theorem cmpMember_eq {a b : Ordering} : cmpMember a b = .eq ↔ a = .eq ∧ b = .eq := by
  cases a <;> cases b <;> decide

theorem cmpMember_lt {a b : Ordering} : cmpMember a b = .lt ↔ a = .lt ∨ a = .eq ∧ b = .lt := by
  cases a <;> cases b <;> decide

theorem cmpMember_gt {a b : Ordering} : cmpMember a b = .gt ↔ a = .gt ∨ a = .eq ∧ b = .gt := by
  cases a <;> cases b <;> decide

/-- The lexicographic order on two members. -/
theorem IsStrongOrder.pair {S T : Type} {c : S → S → Ordering} {e : S → S → Bool} {c' : T → T → Ordering}
    {e' : T → T → Bool} (h : IsStrongOrder c e) (h' : IsStrongOrder c' e') :
    IsStrongOrder (fun x y : S × T => cmpMember (c x.1 y.1) (c' x.2 y.2)) (fun x y => e x.1 y.1 && e' x.2 y.2) where
  eq_iff x y := by rw [cmpMember_eq, h.eq_iff, h'.eq_iff, Prod.ext_iff]
  swap x y := by rw [cmpMember_lt, cmpMember_gt, h.swap, h'.swap, h.eq_iff, h.eq_iff, eq_comm (a := x.1)]
  trans x y z := by
    rw [cmpMember_lt, cmpMember_lt, cmpMember_lt, h.eq_iff, h.eq_iff, h.eq_iff]
    rintro (h1 | ⟨h1, h2⟩) (h3 | ⟨h3, h4⟩)
    · exact Or.inl (h.trans _ _ _ h1 h3)
    · exact Or.inl (h3 ▸ h1)
    · exact Or.inl (h1 ▸ h3)
    · exact Or.inr ⟨h1.trans h3, h'.trans _ _ _ h2 h4⟩
  eqOp x y := by rw [Bool.and_eq_true, h.eqOp, h'.eqOp, Prod.ext_iff]

/-- Transport along an injection. -/
theorem IsStrongOrder.comap {S T : Type} {c : S → S → Ordering} {e : S → S → Bool} (h : IsStrongOrder c e) (f : T → S)
    (hf : ∀ x y, f x = f y → x = y) : IsStrongOrder (fun x y => c (f x) (f y)) (fun x y => e (f x) (f y)) where
  eq_iff x y := (h.eq_iff _ _).trans ⟨hf x y, fun h => by rw [h]⟩
  swap x y := h.swap _ _
  trans x y z := h.trans _ _ _
  eqOp x y := (h.eqOp _ _).trans ⟨hf x y, fun h => by rw [h]⟩

theorem Fp2.strongOrder {K : Type} {c : K → K → Ordering} {e : K → K → Bool} (h : IsStrongOrder c e) :
    IsStrongOrder (Fp2.cmp c) (Fp2.eqOp e) :=
  (h.pair h).comap (fun x : Fp2 K => (x.c0, x.c1)) fun x y h => by
    rw [Prod.mk.injEq] at h
    exact Fp2.ext h.1 h.2

theorem Jac.strongOrder {F : Type} {c : F → F → Ordering} {e : F → F → Bool} (h : IsStrongOrder c e) :
    IsStrongOrder (Jac.cmp c) (Jac.eqOp e) :=
  (h.pair (h.pair h)).comap (fun a : Jac F => (a.x, a.y, a.z)) fun a b h => by
    obtain ⟨x, y, z⟩ := a
    obtain ⟨x', y', z'⟩ := b
    simp only [Prod.mk.injEq] at h
    obtain ⟨rfl, rfl, rfl⟩ := h
    rfl

end Bls
