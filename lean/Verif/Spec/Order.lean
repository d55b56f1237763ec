/-!
# Orders for `std::set` and `std::map`
-/

namespace Bls

/-- What an ordered container needs: a strict total order, and `==` is equality. -/
structure IsStrongOrder {T : Type} (cmp : T → T → Ordering) (eq : T → T → Bool) : Prop where
  eq_iff : ∀ x y, cmp x y = .eq ↔ x = y
  swap : ∀ x y, cmp x y = .lt ↔ cmp y x = .gt
  trans : ∀ x y z, cmp x y = .lt → cmp y z = .lt → cmp x z = .lt
  eqOp : ∀ x y, eq x y = true ↔ x = y

end Bls
