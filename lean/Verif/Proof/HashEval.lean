import Verif.Proof.Nondeg
import Verif.Model.Signatures

/-! Kernel evaluation of `fromMessage` on residues: the map from residues commutes with hashing. -/

namespace Bls

section
variable {N F : Type} (f : N → F) [Ops N] [Ops F] [OpsHom f]
open OpsHom

theorem Ops.map_expLoop (x : N) (s : List UInt64) (n : ℕ) (z : N) :
    f (Ops.expLoop x s n z) = Ops.expLoop (f x) s n (f z) := by
  induction n generalizing z with
  | zero => rfl
  | succ n ih =>
    simp only [Ops.expLoop]
    rw [ih]
    congr 1
    split_ifs
    · rw [h_mul (f := f), h_sqr (f := f)]
    · rw [h_sqr (f := f)]

theorem Ops.map_exp (x : N) (s : List UInt64) : f (Ops.exp x s) = Ops.exp (f x) s := by
  rw [Ops.exp, Ops.map_expLoop f, h_one (f := f)]; rfl

theorem Jac.map_subtract (a e : Jac N) : (a.subtract e).map f = (a.map f).subtract (e.map f) := by
  rw [Jac.subtract, Jac.map_add, Jac.map_negate]; rfl

theorem Jac.map_scaleLoop (s : List UInt64) (n i : ℕ) (q a : Jac N) :
    (Jac.scaleLoop s n i q a).map f = Jac.scaleLoop s n i (q.map f) (a.map f) := by
  induction n generalizing i q a with
  | zero => rfl
  | succ n ih =>
    simp only [Jac.scaleLoop]
    rw [ih, Jac.map_dbl]
    congr 1
    split_ifs
    · rw [Jac.map_add]
    · rfl

theorem Jac.map_scale (a : Jac N) (s : List UInt64) : (a.scale s).map f = (a.map f).scale s := by
  rw [Jac.scale, Jac.map_scaleLoop]
  simp only [Jac.map, h_zero, Jac.scale]

theorem map_horner (x : N) (cs : List N) (acc : N) : f (horner x cs acc) = horner (f x) (cs.map f) (f acc) := by
  induction cs generalizing acc with
  | nil => rfl
  | cons c cs ih => simp only [horner, List.map_cons]; rw [ih, h_add (f := f), h_mul (f := f)]

/-- The parameters under a map. -/
def SwuParams.map (q : SwuParams N) : SwuParams F := ⟨f q.z, f q.zInv, f q.a, f q.b, f q.minusBOverA⟩

theorem map_swuMap (q : SwuParams N) {nr : N → Bool} {nr' : F → Bool} {sq : N → N × Bool} {sq' : F → F × Bool}
    {sg : N → Bool} {sg' : F → Bool} (hn : ∀ x, nr' (f x) = nr x) (hq : ∀ x, (sq' (f x)).1 = f (sq x).1)
    (hg : ∀ x, sg' (f x) = sg x) (e : N) :
    swuMap (q.map f) nr' sq' sg' (f e) = (f (swuMap q nr sq sg e).1, f (swuMap q nr sq sg e).2) := by
  have z1 : ∀ x, Ops.isZero (f x) = Ops.isZero x := h_isZero (f := f)
  have o1 : (Ops.one : F) = f Ops.one := (h_one (f := f)).symm
  simp only [swuMap, SwuParams.map, o1, ← h_mul, ← h_sqr, ← h_add, ← h_inv, z1, ← apply_ite f, hn, hq, hg, ← h_neg]

end

section
variable {N F : Type} (f : N → F) [FpOps N] [FpOps F] [FpHom f]
open OpsHom FpHom

theorem FpC.map_isQuadraticNonResidue (x : N) :
    FpC.isQuadraticNonResidue (f x) = FpC.isQuadraticNonResidue x := by
  rw [FpC.isQuadraticNonResidue, ← Ops.map_exp, h_isOne (f := f)]; rfl

namespace Fp2

theorem map_isQuadraticNonResidue (x : Fp2 N) : (x.map f).isQuadraticNonResidue = x.isQuadraticNonResidue := by
  simp only [isQuadraticNonResidue, map, ← h_sqr, ← h_add, FpC.map_isQuadraticNonResidue]

theorem map_sign (x : Fp2 N) : (x.map f).sign = x.sign := by
  have h1 : ∀ x : N, FpOps.fromMont (f x) = FpOps.fromMont x := h_fromMont (f := f)
  have h2 : ∀ x : N, Ops.isZero (f x) = Ops.isZero x := h_isZero (f := f)
  simp only [sign, map, h1, h2]

theorem map_negativeOne2 : (negativeOne2 : Fp2 N).map f = negativeOne2 := by
  simp only [map, negativeOne2]
  rw [h_const (f := f) _ (by decide +kernel), h_const (f := f) _ (by decide +kernel)]

theorem map_sqrt (x : Fp2 N) : (x.map f).sqrt.1 = x.sqrt.1.map f := by
  have e1 : ∀ x y : Fp2 N, equal (x.map f) (y.map f) = equal x y := h_equal (f := Fp2.map f)
  have o1 : (one : Fp2 F) = one.map f := (h_one (f := Fp2.map f)).symm
  simp only [sqrt]
  rw [← Ops.map_exp (Fp2.map f), ← map_sqr, ← map_mul, ← map_negativeOne2 f, e1]
  split_ifs
  · rw [← map_mul]
    simp only [map, h_neg]
  · rw [o1, ← map_add, ← Ops.map_exp (Fp2.map f), ← map_mul, ← map_mul]

theorem map_frobeniusMap (x : Fp2 N) (n : ℕ) : (x.frobeniusMap n).map f = (x.map f).frobeniusMap n := by
  simp only [frobeniusMap]
  split_ifs
  · simp only [map, h_neg]
  · rfl

end Fp2

namespace G2

theorem map_frb0 : (frb0 : Fp2 N).map f = frb0 := by
  simp only [Fp2.map, frb0]
  rw [h_const (f := f) _ (by decide +kernel), h_const (f := f) _ (by decide +kernel)]

theorem map_frb1 : (frb1 : Fp2 N).map f = frb1 := by
  simp only [Fp2.map, frb1]
  rw [h_const (f := f) _ (by decide +kernel), h_const (f := f) _ (by decide +kernel)]

theorem map_frobeniusMap (a : G2 N) (n : ℕ) :
    (frobeniusMap a n).map (Fp2.map f) = frobeniusMap (a.map (Fp2.map f)) n := by
  induction n generalizing a with
  | zero => rfl
  | succ n ih =>
    simp only [frobeniusMap]
    rw [ih]
    simp only [Jac.map, Fp2.map_mul, Fp2.map_frobeniusMap, map_frb0, map_frb1]

theorem map_clearCofactor (a : G2 N) : (clearCofactor a).map (Fp2.map f) = clearCofactor (a.map (Fp2.map f)) := by
  simp only [clearCofactor, Jac.map_add, Jac.map_subtract, Jac.map_negate, Jac.map_scale, Jac.map_dbl, map_frobeniusMap]

theorem map_swuParams : (swuParams : SwuParams (Fp2 N)).map (Fp2.map f) = swuParams := by
  simp only [SwuParams.map, Fp2.map, swuParams]
  repeat rw [h_const (f := f) _ (by decide +kernel)]

theorem map_swuMapG2 (e : Fp2 N) :
    swuMapG2 (e.map f) = ((swuMapG2 e).1.map f, (swuMapG2 e).2.map f) := by
  rw [swuMapG2, ← map_swuParams f]
  exact map_swuMap (Fp2.map f) _ (Fp2.map_isQuadraticNonResidue f) (Fp2.map_sqrt f) (Fp2.map_sign f) e

theorem map_isoPoly (ws : List (Fp × Fp)) (hw : ∀ w ∈ ws, w.1.val < p ∧ w.2.val < p) (x : Fp2 N) :
    (isoPoly ws x).map f = isoPoly ws (x.map f) := by
  have hc : ∀ w : Fp × Fp, w.1.val < p ∧ w.2.val < p →
      (⟨FpOps.const w.1, FpOps.const w.2⟩ : Fp2 N).map f = ⟨FpOps.const w.1, FpOps.const w.2⟩ := by
    intro w h
    simp only [Fp2.map]
    rw [h_const (f := f) _ h.1, h_const (f := f) _ h.2]
  rw [isoPoly, map_horner (Fp2.map f), isoPoly, List.map_map]
  congr 1
  · apply List.map_congr_left
    intro w h
    exact hc w (hw w (List.mem_of_mem_tail h))
  · apply hc
    cases ws with
    | nil => decide +kernel
    | cons w ws => exact hw w (List.mem_cons_self)

theorem map_isogenyMap (a : G2 N) : (isogenyMap a).map (Fp2.map f) = isogenyMap (a.map (Fp2.map f)) := by
  simp only [isogenyMap, Jac.map, Fp2.map_mul, Fp2.map_sqr]
  rw [map_isoPoly f isoW0 (by decide +kernel), map_isoPoly f isoW2 (by decide +kernel),
    map_isoPoly f isoW3 (by decide +kernel), map_isoPoly f isoW1.tail (by decide +kernel)]

end G2

namespace Sig

theorem map_modPrime (k : List UInt64) : (modPrime k : Option N).map f = modPrime k := by
  simp only [modPrime, Option.map_map]
  congr 1
  funext r
  exact h_toMont (f := f) _

theorem map_fieldElement (b : List UInt8) (o : ℕ) : (fieldElement b o : Option N).map f = fieldElement b o :=
  map_modPrime f _

theorem map_mapPoint (t : Fp2 N) : (mapPoint t).map (Fp2.map f) = mapPoint (t.map f) := by
  rw [mapPoint, mapPoint, G2.map_isogenyMap, G2.map_swuMapG2, Jac.map]
  rw [show (Fp2.one : Fp2 N).map f = Fp2.one from h_one (f := Fp2.map f)]

theorem map_fromMessage (m d : List UInt8) :
    (fromMessage m d : Option (G2 F)) = (fromMessage m d : Option (G2 N)).map (Jac.map (Fp2.map f)) := by
  rw [fromMessage, fromMessage]
  split
  · rfl
  · rename_i code buf _
    split_ifs
    · rfl
    · simp only [← map_fieldElement f]
      generalize (fieldElement buf 0 : Option N) = a
      generalize (fieldElement buf 64 : Option N) = b
      generalize (fieldElement buf 128 : Option N) = c
      generalize (fieldElement buf 192 : Option N) = d
      cases a <;> cases b <;> cases c <;> cases d <;>
        simp only [Option.map_none, Option.map_some, Option.bind_none, Option.bind_some]
      rw [G2.map_clearCofactor, Jac.map_add, map_mapPoint, map_mapPoint]
      rfl

end Sig
end

end Bls
