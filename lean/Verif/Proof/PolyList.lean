import Verif.Proof.NatEval
import Verif.Model.MapToCurve

/-! Polynomials as lists of coefficients, lowest first, multiplied by the kernel. -/

namespace Bls.PolyList

section
variable {N : Type} [Ops N]

def addL : List N → List N → List N
  | [], q => q
  | a :: p, [] => a :: p
  | a :: p, b :: q => Ops.add a b :: addL p q

def mulL : List N → List N → List N
  | [], _ => []
  | c :: cs, q => addL (q.map (Ops.mul c)) (Ops.zero :: mulL cs q)

def eqL : List N → List N → Bool
  | [], q => q.all Ops.isZero
  | a :: p, [] => Ops.isZero a && eqL p []
  | a :: p, b :: q => Ops.equal a b && eqL p q

end

instance {N : Type} [Strict N] : Strict (List N) where
  force l k := l.rec (motive := fun _ => (List N → _) → _) (fun k => k [])
    (fun a _ ih k => Strict.force a fun a => ih fun l => k (a :: l)) k
  force_eq l k := by
    induction l generalizing k with
    | nil => rfl
    | cons a l ih =>
      change Strict.force a _ = _
      rw [Strict.force_eq]
      exact ih fun l => k (a :: l)

/-- Product with evaluated coefficients. -/
def pmul {N : Type} [Ops N] [Strict N] (p q : List N) : List N := Strict.force (mulL p q) fun l => l

section
variable {N F : Type} [Ops N] [Field F] [Ops F] [LawfulOps F] (f : N → F) [OpsHom f]
open OpsHom LawfulOps

/-- The value at `x`. -/
def ev (x : F) : List N → F
  | [] => 0
  | c :: cs => f c + x * ev x cs

variable {f}

theorem ev_add (x : F) : ∀ p q : List N, ev f x (addL p q) = ev f x p + ev f x q
  | [], q => by rw [addL, ev, zero_add]
  | a :: p, [] => by rw [addL, ev, ev, add_zero]
  | a :: p, b :: q => by
    rw [addL, ev, ev, ev, ev_add x p q, h_add (f := f), add_eq]; ring

theorem ev_scale (x : F) (c : N) : ∀ q : List N, ev f x (q.map (Ops.mul c)) = f c * ev f x q
  | [] => by rw [List.map_nil, ev, mul_zero]
  | b :: q => by rw [List.map_cons, ev, ev, ev_scale x c q, h_mul (f := f), mul_eq]; ring

theorem ev_mul (x : F) : ∀ p q : List N, ev f x (mulL p q) = ev f x p * ev f x q
  | [], q => by rw [mulL, ev, zero_mul]
  | c :: p, q => by rw [mulL, ev_add, ev_scale, ev, ev, h_zero (f := f), zero_eq, ev_mul x p q]; ring

theorem ev_pmul [Strict N] (x : F) (p q : List N) : ev f x (pmul p q) = ev f x p * ev f x q := by
  rw [pmul, Strict.force_eq, ev_mul]

theorem ev_all (x : F) : ∀ q : List N, q.all Ops.isZero = true → ev f x q = 0
  | [], _ => rfl
  | b :: q, h => by
    rw [List.all_cons, Bool.and_eq_true, ← h_isZero (f := f), isZero_iff] at h
    rw [ev, h.1, ev_all x q h.2, zero_add, mul_zero]

theorem ev_eq (x : F) : ∀ p q : List N, eqL p q = true → ev f x p = ev f x q
  | [], q, h => by rw [eqL] at h; rw [ev_all x q h, ev]
  | a :: p, [], h => by
    rw [eqL, Bool.and_eq_true, ← h_isZero (f := f), isZero_iff] at h
    change f a + x * ev f x p = ev f x []
    rw [h.1, ev_eq x p [] h.2, ev, zero_add, mul_zero]
  | a :: p, b :: q, h => by
    rw [eqL, Bool.and_eq_true, ← h_equal (f := f), equal_iff] at h
    rw [ev, ev, h.1, ev_eq x p q h.2]

theorem ev_append (x : F) : ∀ p q : List N, ev f x (p ++ q) = ev f x p + x ^ p.length * ev f x q
  | [], q => by rw [List.nil_append, ev, List.length_nil, pow_zero, zero_add, one_mul]
  | a :: p, q => by
    rw [List.cons_append, ev, ev, ev_append x p q, List.length_cons, pow_succ]; ring

theorem horner_eq (x : F) : ∀ (cs : List N) (acc : F), horner x (cs.map f) acc = ev f x cs.reverse + x ^ cs.length * acc
  | [], acc => by rw [List.map_nil, horner, List.reverse_nil, ev, List.length_nil, pow_zero, zero_add, one_mul]
  | c :: cs, acc => by
    rw [List.map_cons, horner, horner_eq x cs, List.reverse_cons, ev_append, List.length_reverse, List.length_cons,
      ev, ev, add_eq, mul_eq, pow_succ]
    ring

/-- Horner's rule evaluates the polynomial. -/
theorem horner_cons (x : F) (c : N) (cs : List N) : horner x (cs.map f) (f c) = ev f x (c :: cs).reverse := by
  rw [horner_eq, List.reverse_cons, ev_append, List.length_reverse, ev, ev, mul_zero, add_zero]

end

end Bls.PolyList
