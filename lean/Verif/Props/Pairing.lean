import Verif.Proof.Miller
import Verif.Proof.FpV

/-!
# C32, C33: products of pairings, final exponentiation

`calculate pairs yield s`: the value and the state of the caller after the callback; `none` would be undefined
behaviour.
-/

namespace Bls.Props
open Bls Pairing

attribute [local irreducible] pairVal

variable {adx : Bool} {σ τ υ : Type}

/-! ## C32 -/

/-- C32: `calculate` is defined for every list; the value of a concatenation is the product of the values, whatever
the callbacks. -/
theorem C32_concat (l l' : List (G1 (FpV adx) × G2 (FpV adx))) (y : Option (σ → σ)) (s : σ) (y' : Option (τ → τ))
    (s' : τ) (y'' : Option (υ → υ)) (s'' : υ) :
    ∃ v v' : Fp12 (FpV adx), (calculate l y s).map Prod.fst = some v ∧ (calculate l' y' s').map Prod.fst = some v' ∧
      (calculate (l ++ l') y'' s'').map Prod.fst = some (v * v') := by
  refine ⟨_, _, by rw [calculate_eq]; rfl, by rw [calculate_eq]; rfl, ?_⟩
  rw [calculate_eq, Option.map_some, List.map_append, List.prod_append]

/-- C32: neither the order of the pairs nor the callback affects the value. -/
theorem C32_perm {l l' : List (G1 (FpV adx) × G2 (FpV adx))} (h : l.Perm l') (y : Option (σ → σ)) (s : σ)
    (y' : Option (τ → τ)) (s' : τ) : (calculate l y s).map Prod.fst = (calculate l' y' s').map Prod.fst :=
  calculate_perm h y s y' s'

example (a b c : G1 (FpV adx) × G2 (FpV adx)) : [a, b, c].Perm [c, a, b] :=
  (List.perm_append_comm : ([a, b] ++ [c]).Perm ([c] ++ [a, b]))

/-- C32: the value of the empty list is one; the callback is not called. -/
theorem C32_empty (y : Option (σ → σ)) (s : σ) :
    calculate ([] : List (G1 (FpV adx) × G2 (FpV adx))) y s = some (1, s) := by
  rw [calculate_eq]
  rfl

/-- C32: the callback is called exactly once when there are at least 20 pairs and not otherwise. -/
theorem C32_yield (l : List (G1 (FpV adx) × G2 (FpV adx))) (y : σ → σ) (s : σ) :
    (calculate l (some y) s).map Prod.snd = some (if 20 ≤ l.length then y s else s) ∧
    (calculate l none s).map Prod.snd = some s := by
  rw [calculate_eq, calculate_eq]
  exact ⟨rfl, by simp [afterYield]⟩

/-! ## C33 -/

/-- C33: `final_exponentiation` raises to the power `3 (p¹² - 1) / q`, an integer. The statement holds for `0` as
well. -/
theorem C33_finalExponentiation (f : Fp12 (FpV adx)) :
    q ∣ p ^ 12 - 1 ∧ finalExponentiation f = some (f ^ (3 * ((p ^ 12 - 1) / q))) :=
  ⟨⟨(p ^ 12 - 1) / q, by decide +kernel⟩, finalExponentiation_eq f⟩

/-- C33: for every nonzero `f` the result passes `isGtValid`, and that test accepts exactly the `q`-th roots of
unity. -/
theorem C33_isGtValid :
    (∀ f v : Fp12 (FpV adx), f ≠ 0 → finalExponentiation f = some v → v.isGtValid = true) ∧
    (∀ v : Fp12 (FpV adx), v.isGtValid = true ↔ v ^ q = 1) := by
  refine ⟨fun f v hf h => ?_, isGtValid_iff⟩
  rw [finalExponentiation_eq] at h
  rw [isGtValid_iff, ← Option.some.inj h]
  exact finalExp_order hf

example : (Fp12.w : Fp12 (FpV adx)) ≠ 0 := fun h => one_ne_zero (congrArg Fp12.c1 h)

/-- C33: every nonzero value of `calculate` is a `q`-th root of unity accepted by `isGtValid`. -/
theorem C33_calculate (l : List (G1 (FpV adx) × G2 (FpV adx))) (y : Option (σ → σ)) (s : σ) (v : Fp12 (FpV adx))
    (h : (calculate l y s).map Prod.fst = some v) (hv : v ≠ 0) : v ^ q = 1 ∧ v.isGtValid = true := by
  rw [isGtValid_iff, and_self]
  exact calculate_order h hv

/-- The empty list. -/
example : ∃ v : Fp12 (FpV adx), (calculate ([] : List (G1 (FpV adx) × G2 (FpV adx))) none ()).map Prod.fst = some v ∧ v ≠ 0 ∧
    v.isGtValid = true := by
  refine ⟨1, by rw [calculate_eq, Option.map_some, List.map_nil, List.prod_nil], one_ne_zero, ?_⟩
  exact (C33_calculate [] none () 1 (by rw [calculate_eq, Option.map_some, List.map_nil, List.prod_nil]) one_ne_zero).2

end Bls.Props
