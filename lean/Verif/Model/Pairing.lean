import Verif.Model.Subgroup

/-!
# The pairing (`src/pairing.cpp`)

An outer `none` is undefined behaviour: a table or vector read out of bounds.
-/

namespace Bls

namespace Pairing

variable {K : Type} [FpOps K]

/-- `array<fp2, 3>`, the coefficients of a line (`src/pairing.cpp:10`). -/
structure Coeff (K : Type) where
  c0 : Fp2 K
  c1 : Fp2 K
  c2 : Fp2 K

/-- `doubling_step` (`src/pairing.cpp:10-42`): the new `coeff` and the new `r`. -/
def doublingStep (r : G2 K) : Coeff K × G2 K :=
  let t0 := r.x.mul r.y
  let t0 := t0.mulByFq FpC.twoInv
  let t1 := r.y.sqr
  let t2 := r.z.sqr
  let t7 := t2.dbl
  let t7 := t7.add t2
  let t3 := t7.mulByB
  let t4 := t3.dbl
  let t4 := t4.add t3
  let t5 := t1.add t4
  let t5 := t5.mulByFq FpC.twoInv
  let t6 := r.y.add r.z
  let t6 := t6.sqr
  let t7 := t2.add t1
  let t6 := t6.sub t7
  let c0 := t3.sub t1
  let t7 := r.x.sqr
  let t4 := t1.sub t4
  let rx := t4.mul t0
  let t2 := t3.sqr
  let t3 := t2.dbl
  let t3 := t3.add t2
  let t5 := t5.sqr
  let ry := t5.sub t3
  let rz := t1.mul t6
  let t0 := t7.dbl
  let c1 := t0.add t7
  let c2 := t6.neg
  (⟨c0, c1, c2⟩, ⟨rx, ry, rz⟩)

/-- `addition_step` (`src/pairing.cpp:44-73`). -/
def additionStep (r tp : G2 K) : Coeff K × G2 K :=
  let t0 := tp.y.mul r.z
  let t0 := t0.neg
  let t0 := t0.add r.y
  let t1 := tp.x.mul r.z
  let t1 := t1.neg
  let t1 := t1.add r.x
  let t2 := t0.sqr
  let t3 := t1.sqr
  let t4 := t1.mul t3
  let t2 := r.z.mul t2
  let t3 := r.x.mul t3
  let t5 := t3.dbl
  let t5 := t4.sub t5
  let t5 := t5.add t2
  let rx := t1.mul t5
  let t2 := t3.sub t5
  let t2 := t2.mul t0
  let t3 := r.y.mul t4
  let ry := t2.sub t3
  let rz := r.z.mul t4
  let t2 := t1.mul tp.y
  let t3 := t0.mul tp.x
  let c0 := t3.sub t2
  let c1 := t0.neg
  let c2 := t1
  (⟨c0, c1, c2⟩, ⟨rx, ry, rz⟩)

/-- `((g2::cofactorEFF[0] >> i) & 1) == 1` (`src/pairing.cpp:87`, `:123`). -/
def loopBit (i : Nat) : Bool := (G2.cofactorEFF.getD 0 0 >>> UInt64.ofNat i) &&& 1 == 1

/-- The loop of `pre_compute` (`src/pairing.cpp:84-93`), `n = i + 1` iterations left: the coefficients written to the
consecutive places `ellCoeffs[k]`. -/
def preComputeLoop (tp : G2 K) : Nat → G2 K → List (Coeff K)
  | 0, _ => []
  | i + 1, r =>
    let d := doublingStep r
    if loopBit i then
      let a := additionStep d.2 tp
      d.1 :: a.1 :: preComputeLoop tp i a.2
    else d.1 :: preComputeLoop tp i d.2

/-- `pre_compute` (`src/pairing.cpp:75-94`) on the zero-initialised array of 68 entries (`src/pairing.cpp:98-99`). That
the loop writes exactly 68 entries is the theorem `preCompute_length`. -/
def preCompute (tp : G2 K) : List (Coeff K) :=
  if tp.isZero then List.replicate 68 ⟨Fp2.zero, Fp2.zero, Fp2.zero⟩ else preComputeLoop tp 63 tp

/-- The body of the inner loops of `miller_loop` (`src/pairing.cpp:119-121`, `:128-130`); `none`: `k` is out of range. -/
def ell (k : Nat) (f : Fp12 K) (pc : G1 K × List (Coeff K)) : Option (Fp12 K) :=
  pc.2[k]?.map fun c =>
    let t0 := c.c2.mulByFq pc.1.y
    let t1 := c.c1.mulByFq pc.1.x
    f.mulBy014 c.c0 t1 t0

/-- The inner loops of `miller_loop` (`src/pairing.cpp:117-122`, `:126-131`) over a nonempty vector. -/
def ellAll (k : Nat) : List (G1 K × List (Coeff K)) → Fp12 K → Option (Fp12 K)
  | [], f => some f
  | pc :: pcs, f => (ell k f pc).bind fun f => ellAll k pcs f

/-- The outer loop of `miller_loop` (`src/pairing.cpp:111-134`), `n = i + 1` iterations left. -/
def millerLoopFrom (pcs : List (G1 K × List (Coeff K))) : Nat → Nat → Fp12 K → Option (Fp12 K)
  | 0, _, f => some f
  | i + 1, k, f =>
    let f := if i ≠ 62 then f.sqr else f
    (ellAll k pcs f).bind fun f =>
      if loopBit i then (ellAll (k + 1) pcs f).bind fun f => millerLoopFrom pcs i (k + 2) f
      else millerLoopFrom pcs i (k + 1) f

/-- `miller_loop` (`src/pairing.cpp:96-137`). For an empty span the bound `pairs.size()-1` wraps around and
`ellCoeffs[0]` is read out of bounds. The callback acts on a state `σ` of the caller; the span is taken not to change
under it. -/
def millerLoop {σ : Type} (pairs : List (G1 K × G2 K)) (yield : Option (σ → σ)) (s : σ) : Option (Fp12 K × σ) :=
  let pcs := pairs.map fun pq => (pq.1, preCompute pq.2)
  let s := if 20 ≤ pairs.length then (match yield with | some y => y s | none => s) else s
  if pairs.isEmpty then none
  else (millerLoopFrom pcs 63 0 Fp12.one).map fun f => (f.conjugate, s)

/-- The easy part of `final_exponentiation` (`src/pairing.cpp:142-148`): `t[2]`. -/
def easyPart (f : Fp12 K) : Option (Fp12 K) :=
  (f.frobeniusMap 6).bind fun t0 =>
  let t1 := f.inv
  let t2 := t0.mul t1
  let t1 := t2
  (t2.frobeniusMapAssign 2).map fun t2 =>
  t2.mul t1

/-- The rest of `final_exponentiation` (`src/pairing.cpp:149-177`) from `t[2]`. -/
def hardPart (t2 : Fp12 K) : Option (Fp12 K) :=
  let t1 := t2.cyclotomicSquare
  let t1 := t1.conjugate
  let t3 := t2.cyclotomicExp G2.cofactorEFF
  let t3 := t3.conjugate
  let t4 := t3.cyclotomicSquare
  let t5 := t1.mul t3
  let t1 := t5.cyclotomicExp G2.cofactorEFF
  let t1 := t1.conjugate
  let t0 := t1.cyclotomicExp G2.cofactorEFF
  let t0 := t0.conjugate
  let t6 := t0.cyclotomicExp G2.cofactorEFF
  let t6 := t6.conjugate
  let t6 := t6.mul t4
  let t4 := t6.cyclotomicExp G2.cofactorEFF
  let t4 := t4.conjugate
  let t5 := t5.conjugate
  let t4 := t4.mul t5
  let t4 := t4.mul t2
  let t5 := t2.conjugate
  let t1 := t1.mul t2
  (t1.frobeniusMapAssign 3).bind fun t1 =>
  let t6 := t6.mul t5
  (t6.frobeniusMapAssign 1).bind fun t6 =>
  let t3 := t3.mul t0
  (t3.frobeniusMapAssign 2).map fun t3 =>
  let t3 := t3.mul t1
  let t3 := t3.mul t6
  t3.mul t4

/-- `final_exponentiation` (`src/pairing.cpp:139-178`). -/
def finalExponentiation (f : Fp12 K) : Option (Fp12 K) := (easyPart f).bind hardPart

/-- `calculate` (`src/pairing.cpp:180-190`). -/
def calculate {σ : Type} (pairs : List (G1 K × G2 K)) (yield : Option (σ → σ)) (s : σ) : Option (Fp12 K × σ) :=
  if pairs.isEmpty then some (Fp12.one, s)
  else (millerLoop pairs yield s).bind fun r => (finalExponentiation r.1).map fun f => (f, r.2)

/-- `add_pair` (`src/pairing.cpp:192-198`). -/
def addPair (pairs : List (G1 K × G2 K)) (e1 : G1 K) (e2 : G2 K) : List (G1 K × G2 K) :=
  if !(e1.isZero || e2.isZero) then pairs ++ [(e1.affine, e2.affine)] else pairs

end Pairing

end Bls
