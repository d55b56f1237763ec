import Verif.Model.Alias

/-!
# In-place functions equal the functions on values, for every identification of destination and operands
-/

namespace Bls

namespace Heap

variable {L T : Type} [DecidableEq L]

theorem put_self (m : Heap L T) (o : L) (v : T) : m.put o v o = v := if_pos rfl

theorem put_ne (m : Heap L T) {o k : L} (h : k ≠ o) (v : T) : m.put o v k = m k := if_neg h

theorem put_put (m : Heap L T) (o : L) (v w : T) : (m.put o v).put o w = m.put o w := by
  funext k
  unfold put
  split <;> rfl

theorem put_get (m : Heap L T) (o : L) : m.put o (m o) = m := by
  funext k
  unfold put
  split
  · next h => rw [h]
  · rfl

end Heap

open Heap

namespace Portable.Mem

variable {L : Type} [DecidableEq L]

theorem addChain_eq (z x y : L) (m : Heap L Fp) : (addChain z x y m).1 = m.put z (Portable.addChain (m x) (m y)) := by
  by_cases hx : x = z <;> by_cases hy : y = z
  · subst hx; subst hy
    simp only [addChain, Portable.addChain, put_self, put_put]
  · subst hx
    simp only [addChain, Portable.addChain, put_self, put_put, put_ne _ hy]
  · subst hy
    simp only [addChain, Portable.addChain, put_self, put_put, put_ne _ hx]
  · simp only [addChain, Portable.addChain, put_self, put_put, put_ne _ hx, put_ne _ hy]

theorem subChain_eq (z x y : L) (m : Heap L Fp) :
    subChain z x y m = (m.put z (Portable.subChain (m x) (m y)).1, (Portable.subChain (m x) (m y)).2) := by
  by_cases hx : x = z <;> by_cases hy : y = z
  · subst hx; subst hy
    simp only [subChain, Portable.subChain, put_self, put_put]
  · subst hx
    simp only [subChain, Portable.subChain, put_self, put_put, put_ne _ hy]
  · subst hy
    simp only [subChain, Portable.subChain, put_self, put_put, put_ne _ hx]
  · simp only [subChain, Portable.subChain, put_self, put_put, put_ne _ hx, put_ne _ hy]

theorem subModulus_eq (z : L) (m : Heap L Fp) : (subModulus z m).1 = m.put z (Portable.subChain (m z) MODULUS).1 := by
  simp only [subModulus, Portable.subChain, put_self, put_put]

theorem addModulus_eq (z : L) (m : Heap L Fp) : (addModulus z m).1 = m.put z (Portable.addChain (m z) MODULUS) := by
  simp only [addModulus, Portable.addChain, put_self, put_put]

theorem modulusSub_eq (z x : L) (m : Heap L Fp) : (modulusSub z x m).1 = m.put z (Portable.subChain MODULUS (m x)).1 := by
  by_cases hx : x = z
  · subst hx
    simp only [modulusSub, Portable.subChain, put_self, put_put]
  · simp only [modulusSub, Portable.subChain, put_self, put_put, put_ne _ hx]

theorem condSub_eq (z : L) (m : Heap L Fp) : condSub z m = m.put z (Portable.condSub (m z)) := by
  unfold condSub Portable.condSub
  split
  · rw [subModulus_eq]
  · rw [put_get]

theorem condSub_put (z : L) (m : Heap L Fp) (v : Fp) : condSub z (m.put z v) = m.put z (Portable.condSub v) := by
  rw [condSub_eq, put_self, put_put]

theorem add_eq (z x y : L) (m : Heap L Fp) : add z x y m = m.put z (Portable.add (m x) (m y)) := by
  rw [add, addChain_eq, condSub_put, Portable.add]

theorem ladd_eq (z x y : L) (m : Heap L Fp) : ladd z x y m = m.put z (Portable.ladd (m x) (m y)) := by
  rw [ladd, addChain_eq, Portable.ladd]

theorem double_eq (z x : L) (m : Heap L Fp) : double z x m = m.put z (Portable.double (m x)) := by
  rw [double, addChain_eq, condSub_put, Portable.double]

theorem ldouble_eq (z x : L) (m : Heap L Fp) : ldouble z x m = m.put z (Portable.ldouble (m x)) := by
  rw [ldouble, addChain_eq, Portable.ldouble]

theorem subtract_eq (z x y : L) (m : Heap L Fp) : subtract z x y m = m.put z (Portable.subtract (m x) (m y)) := by
  unfold subtract Portable.subtract
  rw [subChain_eq]
  dsimp only
  split
  · rw [addModulus_eq, put_self, put_put]
  · rfl

theorem lsubtract_eq (z x y : L) (m : Heap L Fp) : lsubtract z x y m = m.put z (Portable.lsubtract (m x) (m y)) := by
  rw [lsubtract, subChain_eq, Portable.lsubtract]

theorem negate_eq (z x : L) (m : Heap L Fp) : negate z x m = m.put z (Portable.negate (m x)) := by
  unfold negate Portable.negate
  split
  · rfl
  · rw [modulusSub_eq]

theorem mulRound5_eq (z x y : L) (t : Fp) (m : Heap L Fp) :
    mulRound5 z x y t m = m.put z (mulRound (m x).d5 (m y) t) := by
  by_cases hy : y = z
  · subst hy
    simp only [mulRound5, mulRound, put_self, put_put]
  · simp only [mulRound5, mulRound, put_self, put_put, put_ne _ hy]

theorem multiply_eq (z x y : L) (m : Heap L Fp) : multiply z x y m = m.put z (Portable.multiply (m x) (m y)) := by
  unfold multiply Portable.multiply
  dsimp only
  rw [mulRound5_eq, condSub_put]

theorem sqRound5_eq (z x : L) (p : Fp) (m : Heap L Fp) : sqRound5 z x p m = m.put z (Portable.sqRound5 (m x) p) := by
  by_cases hx : x = z
  · subst hx
    simp only [sqRound5, Portable.sqRound5, put_self, put_put]
  · simp only [sqRound5, Portable.sqRound5, put_self, put_put, put_ne _ hx]

theorem square_eq (z x : L) (m : Heap L Fp) : square z x m = m.put z (Portable.square (m x)) := by
  unfold square Portable.square
  dsimp only
  rw [sqRound5_eq, condSub_put]

end Portable.Mem

variable {K L : Type} [FpOps K] [DecidableEq L]

namespace Fp2.Mem

theorem addAssign_eq (o e : L) (m : Heap L (Fp2 K)) : addAssign o e m = m.put o ((m o).add (m e)) := by
  by_cases h : e = o
  · subst h
    simp only [addAssign, add, put_self, put_put]
  · simp only [addAssign, add, put_self, put_put, put_ne _ h]

theorem doubleAssign_eq (o : L) (m : Heap L (Fp2 K)) : doubleAssign o m = m.put o (m o).dbl := by
  simp only [doubleAssign, dbl, put_self, put_put]

theorem subtractAssign_eq (o e : L) (m : Heap L (Fp2 K)) : subtractAssign o e m = m.put o ((m o).sub (m e)) := by
  by_cases h : e = o
  · subst h
    simp only [subtractAssign, sub, put_self, put_put]
  · simp only [subtractAssign, sub, put_self, put_put, put_ne _ h]

theorem multiplyAssign_eq (o e : L) (m : Heap L (Fp2 K)) : multiplyAssign o e m = m.put o ((m o).mul (m e)) := by
  simp only [multiplyAssign, mul, put_self, put_put]

theorem squareAssign_eq (o : L) (m : Heap L (Fp2 K)) : squareAssign o m = m.put o (m o).sqr := by
  simp only [squareAssign, sqr, put_self, put_put]

theorem frobeniusMapAssign_eq (o : L) (k : Nat) (m : Heap L (Fp2 K)) :
    frobeniusMapAssign o k m = m.put o ((m o).frobeniusMap k) := by
  unfold frobeniusMapAssign frobeniusMap
  split
  · rfl
  · rw [put_get]

theorem sqrt_eq (o c : L) (m : Heap L (Fp2 K)) : sqrt o c m = (m.put c (Fp2.sqrt (m o)).1, (Fp2.sqrt (m o)).2) := by
  unfold sqrt Fp2.sqrt
  dsimp only
  split
  · simp only [put_self, put_put]
  · simp only [put_self]

end Fp2.Mem

theorem FpC.sqrtMem_eq (o c : L) (m : Heap L K) : FpC.sqrtMem o c m = (m.put c (FpC.sqrt (m o)).1, (FpC.sqrt (m o)).2) := by
  unfold FpC.sqrtMem FpC.sqrt
  simp only [put_self]

namespace Fp6.Mem

theorem addAssign_eq (o e : L) (m : Heap L (Fp6 K)) : addAssign o e m = m.put o ((m o).add (m e)) := by
  by_cases h : e = o
  · subst h
    simp only [addAssign, add, put_self, put_put]
  · simp only [addAssign, add, put_self, put_put, put_ne _ h]

theorem doubleAssign_eq (o : L) (m : Heap L (Fp6 K)) : doubleAssign o m = m.put o (m o).dbl := by
  simp only [doubleAssign, dbl, put_self, put_put]

theorem subtractAssign_eq (o e : L) (m : Heap L (Fp6 K)) : subtractAssign o e m = m.put o ((m o).sub (m e)) := by
  by_cases h : e = o
  · subst h
    simp only [subtractAssign, sub, put_self, put_put]
  · simp only [subtractAssign, sub, put_self, put_put, put_ne _ h]

theorem multiplyAssign_eq (o e : L) (m : Heap L (Fp6 K)) : multiplyAssign o e m = m.put o ((m o).mul (m e)) := by
  by_cases h : e = o
  · subst h
    simp only [multiplyAssign, mul, put_self, put_put]
  · simp only [multiplyAssign, mul, put_self, put_put, put_ne _ h]

theorem squareAssign_eq (o : L) (m : Heap L (Fp6 K)) : squareAssign o m = m.put o (m o).sqr := by
  simp only [squareAssign, sqr, put_self, put_put]

omit [FpOps K] in
theorem Ref.get_put (r : Ref L) (o : L) (m : Heap L (Fp6 K)) (h : r ≠ .c2 o) (v : Fp2 K) :
    r.get (m.put o { m o with c2 := v }) = r.get m := by
  cases r with
  | c0 k =>
    by_cases hk : k = o
    · subst hk; simp only [Ref.get, put_self]
    · simp only [Ref.get, put_ne _ hk]
  | c1 k =>
    by_cases hk : k = o
    · subst hk; simp only [Ref.get, put_self]
    · simp only [Ref.get, put_ne _ hk]
  | c2 k =>
    have hk : k ≠ o := fun e => h (by rw [e])
    simp only [Ref.get, put_ne _ hk]

theorem mulBy01Assign_eq (o : L) (e0 e1 : Ref L) (m : Heap L (Fp6 K)) (h0 : e0 ≠ .c2 o) (h1 : e1 ≠ .c2 o) :
    mulBy01Assign o e0 e1 m = m.put o ((m o).mulBy01Assign (e0.get m) (e1.get m)) := by
  simp only [mulBy01Assign, Fp6.mulBy01Assign, Ref.get_put _ _ _ h0, Ref.get_put _ _ _ h1, put_self, put_put]

theorem frobeniusMapAssign_eq (o : L) (k : Nat) (m : Heap L (Fp6 K)) :
    frobeniusMapAssign o k m = m.put o ((m o).frobeniusMapAssign k) := by
  unfold frobeniusMapAssign Fp6.frobeniusMapAssign
  simp only [put_self, put_put]
  generalize k % 6 = i
  match i with
  | 0 => rfl
  | 1 => rfl
  | 2 => rfl
  | 3 => rfl
  | n + 4 => rfl

end Fp6.Mem

namespace Fp12.Mem

theorem addAssign_eq (o e : L) (m : Heap L (Fp12 K)) : addAssign o e m = m.put o ((m o).add (m e)) := by
  by_cases h : e = o
  · subst h
    simp only [addAssign, add, put_self, put_put]
  · simp only [addAssign, add, put_self, put_put, put_ne _ h]

theorem doubleAssign_eq (o : L) (m : Heap L (Fp12 K)) : doubleAssign o m = m.put o (m o).dbl := by
  simp only [doubleAssign, dbl, put_self, put_put]

theorem subtractAssign_eq (o e : L) (m : Heap L (Fp12 K)) : subtractAssign o e m = m.put o ((m o).sub (m e)) := by
  by_cases h : e = o
  · subst h
    simp only [subtractAssign, sub, put_self, put_put]
  · simp only [subtractAssign, sub, put_self, put_put, put_ne _ h]

theorem multiplyAssign_eq (o e : L) (m : Heap L (Fp12 K)) : multiplyAssign o e m = m.put o ((m o).mul (m e)) := by
  simp only [multiplyAssign, mul, put_self, put_put]

theorem squareAssign_eq (o : L) (m : Heap L (Fp12 K)) : squareAssign o m = m.put o (m o).sqr := by
  simp only [squareAssign, sqr, put_self, put_put]

theorem cyclotomicSquareAssign_eq (o : L) (m : Heap L (Fp12 K)) :
    cyclotomicSquareAssign o m = m.put o (m o).cyclotomicSquare := by
  simp only [cyclotomicSquareAssign, cyclotomicSquare, put_self, put_put]

theorem mulBy014Assign_eq (o : L) (e0 e1 e4 : Ref L) (m : Heap L (Fp12 K)) :
    mulBy014Assign o e0 e1 e4 m = m.put o ((m o).mulBy014 (e0.get m) (e1.get m) (e4.get m)) := by
  simp only [mulBy014Assign, mulBy014, put_self, put_put]

end Fp12.Mem

namespace Jac.Mem

variable {F : Type} [Ops F]

theorem doubleAssign_eq (o : L) (m : Heap L (Jac F)) : doubleAssign o m = m.put o (m o).dbl := by
  unfold doubleAssign dbl
  split
  · rw [put_get]
  · simp only [put_self, put_put]

theorem addAssign_eq (o e : L) (m : Heap L (Jac F)) : addAssign o e m = m.put o ((m o).add (m e)) := by
  unfold addAssign add
  split
  · rfl
  split
  · rw [put_get]
  dsimp only
  split
  · split
    · exact doubleAssign_eq o m
    · rfl
  · by_cases h : e = o
    · subst h
      simp only [put_self, put_put]
    · simp only [put_self, put_put, put_ne _ h]

end Jac.Mem

end Bls
