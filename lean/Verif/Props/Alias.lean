import Verif.Proof.AliasTower
import Verif.Proof.DivisionMem
import Verif.Proof.DivisionWords
import Verif.Props.Field
import Verif.Props.Group

/-!
# C52: in-place operations whose operands are the destination

A heap maps objects to contents (`Model/Alias.lean`); `m.put o v` is the heap `m` in which only the object `o` has changed, to
`v`. The objects in the statements are arbitrary, in particular they may be equal.
-/

namespace Bls.Props
open Bls Heap

variable {adx : Bool} {L : Type} [DecidableEq L]

/-! ## Base field, portable backend -/

/-- C52: the portable routines leave in `z` the result for the operands' values before the call and change nothing else, whether or
not `z` is `x` or `y` (for the values see C03; for the x86-64 routines see C05). -/
theorem C52_portable (z x y : L) (m : Heap L Fp) :
    Portable.Mem.add z x y m = m.put z (Portable.add (m x) (m y)) ∧
    Portable.Mem.ladd z x y m = m.put z (Portable.ladd (m x) (m y)) ∧
    Portable.Mem.double z x m = m.put z (Portable.double (m x)) ∧
    Portable.Mem.ldouble z x m = m.put z (Portable.ldouble (m x)) ∧
    Portable.Mem.subtract z x y m = m.put z (Portable.subtract (m x) (m y)) ∧
    Portable.Mem.lsubtract z x y m = m.put z (Portable.lsubtract (m x) (m y)) ∧
    Portable.Mem.negate z x m = m.put z (Portable.negate (m x)) ∧
    Portable.Mem.multiply z x y m = m.put z (Portable.multiply (m x) (m y)) ∧
    Portable.Mem.square z x m = m.put z (Portable.square (m x)) :=
  ⟨Portable.Mem.add_eq z x y m, Portable.Mem.ladd_eq z x y m, Portable.Mem.double_eq z x m, Portable.Mem.ldouble_eq z x m,
    Portable.Mem.subtract_eq z x y m, Portable.Mem.lsubtract_eq z x y m, Portable.Mem.negate_eq z x m,
    Portable.Mem.multiply_eq z x y m, Portable.Mem.square_eq z x m⟩

/-- `x.multiplyAssign(x)` on a heap with two objects: the object `0` becomes its square, the object `1` keeps its content. -/
example : let m : Heap (Fin 2) Fp := fun o => if o = 0 then ⟨3, 1, 4, 1, 5, 9⟩ else ⟨2, 6, 5, 3, 5, 8⟩
    Portable.Mem.multiply 0 0 0 m 0 = Portable.square ⟨3, 1, 4, 1, 5, 9⟩ ∧ Portable.Mem.multiply 0 0 0 m 1 = ⟨2, 6, 5, 3, 5, 8⟩ ∧
    Portable.Mem.multiply 0 0 0 m 0 ≠ m 0 := by
  decide +kernel

/-- C52: a square root may be written over its argument: the flag tells whether the content before the call was a square, and
then the new content of `c` is a root of it. -/
theorem C52_sqrt (o c : L) :
    (∀ m : Heap L (FpV adx), ∃ r flag, FpC.sqrtMem o c m = (m.put c r, flag) ∧ (flag = true ↔ ∃ y, y * y = m o) ∧
      (flag = true → r * r = m o)) ∧
    (∀ m : Heap L (Fp2 (FpV adx)), ∃ r flag, Fp2.Mem.sqrt o c m = (m.put c r, flag) ∧ (flag = true ↔ ∃ y, y * y = m o) ∧
      (flag = true → r * r = m o)) :=
  ⟨fun m => ⟨_, _, FpC.sqrtMem_eq o c m, C10_sqrt adx (m o)⟩, fun m => ⟨_, _, Fp2.Mem.sqrt_eq o c m, C18_sqrt adx (m o)⟩⟩

/-- The argument is the destination and is a square. -/
example : let m : Heap ℕ (FpV adx) := fun _ => 4
    ∃ y, y * y = m 0 := ⟨2, by norm_num⟩

/-! ## Tower -/

/-- C52: the assigning members of `fp2` store sum, difference and product in the field for all objects, equal or not. -/
theorem C52_fp2 (o e : L) (k : ℕ) (m : Heap L (Fp2 (FpV adx))) :
    Fp2.Mem.addAssign o e m = m.put o (m o + m e) ∧ Fp2.Mem.subtractAssign o e m = m.put o (m o - m e) ∧
    Fp2.Mem.multiplyAssign o e m = m.put o (m o * m e) ∧ Fp2.Mem.doubleAssign o m = m.put o (2 * m o) ∧
    Fp2.Mem.squareAssign o m = m.put o (m o ^ 2) ∧ Fp2.Mem.frobeniusMapAssign o k m = m.put o (m o ^ p ^ k) := by
  rw [Fp2.Mem.addAssign_eq, Fp2.Mem.subtractAssign_eq, Fp2.Mem.multiplyAssign_eq, Fp2.Mem.doubleAssign_eq,
    Fp2.Mem.squareAssign_eq, Fp2.Mem.frobeniusMapAssign_eq]
  obtain ⟨h1, h2, -, h4, -, h3, h5, -, -, -, -, -, h6, -⟩ := C17_fp2 adx (m o) (m e) 0 k
  rw [h1, h2, h3, h4, h5, h6]
  exact ⟨rfl, rfl, rfl, rfl, rfl, rfl⟩

/-- C52: the same for `fp6`. -/
theorem C52_fp6 (o e : L) (m : Heap L (Fp6 (FpV adx))) :
    Fp6.Mem.addAssign o e m = m.put o (m o + m e) ∧ Fp6.Mem.subtractAssign o e m = m.put o (m o - m e) ∧
    Fp6.Mem.multiplyAssign o e m = m.put o (m o * m e) ∧ Fp6.Mem.doubleAssign o m = m.put o (2 * m o) ∧
    Fp6.Mem.squareAssign o m = m.put o (m o ^ 2) ∧
    ∀ k, Fp6.Mem.frobeniusMapAssign o k m = m.put o (m o ^ p ^ k) := by
  rw [Fp6.Mem.addAssign_eq, Fp6.Mem.subtractAssign_eq, Fp6.Mem.multiplyAssign_eq, Fp6.Mem.doubleAssign_eq,
    Fp6.Mem.squareAssign_eq]
  obtain ⟨h1, h2, -, h4, h3, h5, -⟩ := C19_fp6 adx (m o) (m e) 0 0
  rw [h1, h2, h3, h4, h5]
  refine ⟨rfl, rfl, rfl, rfl, rfl, fun k => ?_⟩
  rw [Fp6.Mem.frobeniusMapAssign_eq, (C20_assign adx k).1]

/-- C52: the same for `fp12`. -/
theorem C52_fp12 (o e : L) (m : Heap L (Fp12 (FpV adx))) :
    Fp12.Mem.addAssign o e m = m.put o (m o + m e) ∧ Fp12.Mem.subtractAssign o e m = m.put o (m o - m e) ∧
    Fp12.Mem.multiplyAssign o e m = m.put o (m o * m e) ∧ Fp12.Mem.doubleAssign o m = m.put o (2 * m o) ∧
    Fp12.Mem.squareAssign o m = m.put o (m o ^ 2) ∧
    (m o ^ (p ^ 4 - p ^ 2 + 1) = 1 → Fp12.Mem.cyclotomicSquareAssign o m = m.put o (m o ^ 2)) ∧
    ∀ e0 e1 e4 : Fp12.Mem.Ref L, Fp12.Mem.mulBy014Assign o e0 e1 e4 m =
      m.put o (m o * ⟨⟨e0.get m, e1.get m, 0⟩, ⟨0, e4.get m, 0⟩⟩) := by
  rw [Fp12.Mem.addAssign_eq, Fp12.Mem.subtractAssign_eq, Fp12.Mem.multiplyAssign_eq, Fp12.Mem.doubleAssign_eq,
    Fp12.Mem.squareAssign_eq]
  obtain ⟨h1, h2, -, h4, h3, h5, -⟩ := C19_fp12 adx (m o) (m e) 0 0 0
  rw [h1, h2, h3, h4, h5]
  refine ⟨rfl, rfl, rfl, rfl, rfl, fun h => ?_, fun e0 e1 e4 => ?_⟩
  · rw [Fp12.Mem.cyclotomicSquareAssign_eq, (C21_cyclotomic adx _ h []).1]
  · rw [Fp12.Mem.mulBy014Assign_eq, Fp12.mulBy014_eq]
    rfl

/-- C52 for `fp6::mulBy01Assign`, the full statement. -/
def C52_mulBy01_full (adx : Bool) : Prop := ∀ (o : ℕ) (e0 e1 : Fp6.Mem.Ref ℕ) (m : Heap ℕ (Fp6 (FpV adx))),
  Fp6.Mem.mulBy01Assign o e0 e1 m = m.put o (m o * ⟨e0.get m, e1.get m, 0⟩)

/-- C52 for `fp6::mulBy01Assign`, the exact condition: the result is the product if and only if no argument is the member `c2` of
the object itself, or the error `(c0 + c1)(e0 c2 + e1 c1 - c2)` happens to vanish. -/
theorem C52_mulBy01_exact (o : L) (e0 e1 : Fp6.Mem.Ref L) (m : Heap L (Fp6 (FpV adx))) :
    Fp6.Mem.mulBy01Assign o e0 e1 m = m.put o (m o * ⟨e0.get m, e1.get m, 0⟩) ↔
      (e0 ≠ .c2 o ∧ e1 ≠ .c2 o) ∨
      ((m o).c0 + (m o).c1) * (e0.get m * (m o).c2 + e1.get m * (m o).c1 - (m o).c2) = 0 :=
  Fp6.Mem.mulBy01Assign_iff o e0 e1 m

/-- C52 for `fp6::mulBy01Assign`, the part that holds. Missing: arguments that are the member `c2` of the object. -/
theorem C52_mulBy01_partial (o : L) (e0 e1 : Fp6.Mem.Ref L) (m : Heap L (Fp6 (FpV adx))) (h0 : e0 ≠ .c2 o) (h1 : e1 ≠ .c2 o) :
    Fp6.Mem.mulBy01Assign o e0 e1 m = m.put o (m o * ⟨e0.get m, e1.get m, 0⟩) :=
  (C52_mulBy01_exact o e0 e1 m).2 (Or.inl ⟨h0, h1⟩)

/-- The arguments may be the other members of the object itself. -/
example : (Fp6.Mem.Ref.c0 (0 : ℕ)) ≠ .c2 0 ∧ (Fp6.Mem.Ref.c1 (0 : ℕ)) ≠ .c2 0 := by decide

/-- C52 for `fp6::mulBy01Assign` is false: `x.mulBy01Assign(x.c2, e)` for `x = 1 + 2 v²`, `e = 0`. -/
theorem C52_mulBy01_false (adx : Bool) : ¬ C52_mulBy01_full adx := by
  intro h
  have h1 := (C52_mulBy01_exact (adx := adx) 0 (.c2 0) (.c1 1) fun o => if o = 0 then ⟨1, 0, 2⟩ else 0).1 (h 0 _ _ _)
  rcases h1 with ⟨h1, -⟩ | h1
  · exact h1 rfl
  · have h2 : (1 + 0 : Fp2 (FpV adx)) * (2 * 2 + 0 * 0 - 2) = 0 := h1
    have h3 : (2 : Fp2 (FpV adx)) = 0 := by linear_combination h2
    have h4 : (2 : FpV adx) = 0 := by
      have := congrArg Fp2.c0 h3
      have e : (2 : Fp2 (FpV adx)) = 1 + 1 := by norm_num
      rw [e] at this
      have h5 : (1 : FpV adx) + 1 = 0 := this
      linear_combination h5
    exact IsFp.two_ne_zero h4

/-! ## Points -/

/-- C52: adding in place is the group law, also for `P.addAssign(P)`; other objects do not change. -/
theorem C52_points (o e : L) : (∀ (m : Heap L (G1 (FpV adx))) (P Q : E1 (FpV adx)), (m o).Rep P → (m e).Rep Q →
      (Jac.Mem.addAssign o e m o).Rep (P + Q) ∧ (Jac.Mem.doubleAssign o m o).Rep (2 • P) ∧
      ∀ k ≠ o, Jac.Mem.addAssign o e m k = m k ∧ Jac.Mem.doubleAssign o m k = m k) ∧
    (∀ (m : Heap L (G2 (FpV adx))) (P Q : E2 (FpV adx)), (m o).Rep P → (m e).Rep Q →
      (Jac.Mem.addAssign o e m o).Rep (P + Q) ∧ (Jac.Mem.doubleAssign o m o).Rep (2 • P) ∧
      ∀ k ≠ o, Jac.Mem.addAssign o e m k = m k ∧ Jac.Mem.doubleAssign o m k = m k) := by
  constructor
  · intro m P Q hP hQ
    obtain ⟨h1, h2, -⟩ := (C22_group_law adx).1 _ _ P Q hP hQ
    rw [Jac.Mem.addAssign_eq, Jac.Mem.doubleAssign_eq, put_self, put_self]
    exact ⟨h1, h2, fun k hk => ⟨put_ne _ hk _, put_ne _ hk _⟩⟩
  · intro m P Q hP hQ
    obtain ⟨h1, h2, -⟩ := (C22_group_law adx).2 _ _ P Q hP hQ
    rw [Jac.Mem.addAssign_eq, Jac.Mem.doubleAssign_eq, put_self, put_self]
    exact ⟨h1, h2, fun k hk => ⟨put_ne _ hk _, put_ne _ hk _⟩⟩

example : let m : Heap ℕ (G1 (FpV adx)) := fun _ => G1.one
    (m 0).Rep (gen1 (FpV adx)) ∧ (m 1).Rep (gen1 (FpV adx)) := ⟨G1.one_rep, G1.one_rep⟩

/-! ## Multi-precision words -/

/-- C52: the word loops of the division, on memory. The destination `c` may lie anywhere at or below an operand or behind its end
(`Up`, loops upwards), at or above the operand or ending before it (`Down`, loops downwards); in particular it may be the
operand. Only the destination changes, and its words are those of the sum, difference, product or shift of the words before
the call, the result being the carry. -/
theorem C52_words (m : Heap ℕ UInt64) (n c a b : ℕ) (digit : UInt64) :
    (Division.Mem.Up c a n → Division.Mem.Up c b n → ∃ ws carry, Division.Mem.addn n c a b 0 m = (Division.Mem.write m c ws, carry) ∧
      ws.length = n ∧ wordsVal ws + 2 ^ (64 * n) * carry.toNat =
        wordsVal (Division.Mem.words m a n) + wordsVal (Division.Mem.words m b n)) ∧
    (Division.Mem.Up c a n → Division.Mem.Up c b n → ∃ ws carry, Division.Mem.subn n c a b 0 m = (Division.Mem.write m c ws, carry) ∧
      ws.length = n ∧ wordsVal ws + wordsVal (Division.Mem.words m b n) =
        wordsVal (Division.Mem.words m a n) + 2 ^ (64 * n) * carry.toNat) ∧
    (Division.Mem.Up c a n → ∃ ws carry, Division.Mem.mul1 digit n c a 0 m = (Division.Mem.write m c ws, carry) ∧
      ws.length = n ∧ wordsVal ws + 2 ^ (64 * n) * carry.toNat = wordsVal (Division.Mem.words m a n) * digit.toNat) ∧
    (Division.Mem.Up c a n → ∃ ws carry, Division.Mem.add1 n c a digit m = (Division.Mem.write m c ws, carry) ∧
      ws.length = n ∧ wordsVal ws + 2 ^ (64 * n) * carry.toNat = wordsVal (Division.Mem.words m a n) + digit.toNat) ∧
    (Division.Mem.Up c a n → ∃ ws carry, Division.Mem.sub1 n c a digit m = (Division.Mem.write m c ws, carry) ∧
      ws.length = n ∧ wordsVal ws + digit.toNat = wordsVal (Division.Mem.words m a n) + 2 ^ (64 * n) * carry.toNat) ∧
    (∀ bits < 64, Division.Mem.Up c a n → 0 < bits → ∃ ws carry, Division.Mem.lshb bits n c a 0 m = (Division.Mem.write m c ws, carry) ∧
      ws.length = n ∧ wordsVal ws + 2 ^ (64 * n) * carry.toNat = 2 ^ bits * wordsVal (Division.Mem.words m a n)) ∧
    (∀ bits < 64, Division.Mem.Down c a n → ∃ ws carry,
      Division.Mem.rshb bits n (c + n) (a + n) 0 m = (Division.Mem.write m c ws, carry) ∧
      ws.length = n ∧ wordsVal ws = wordsVal (Division.Mem.words m a n) / 2 ^ bits ∧
      carry.toNat = wordsVal (Division.Mem.words m a n) % 2 ^ bits) ∧
    (∀ digits ≤ n, Division.Mem.lshd c c n digits m =
      Division.Mem.write m c (List.replicate digits 0 ++ Division.Mem.words m c (n - digits)) ∧
      Division.Mem.rshd c c n digits m =
      Division.Mem.write m c (Division.Mem.words m (c + digits) (n - digits) ++ List.replicate digits 0)) := by
  have hl := Division.Mem.words_length m n
  refine ⟨fun h h' => ?_, fun h h' => ?_, fun h => ?_, fun h => ?_, fun h => ?_, fun bits hb h h0 => ?_, fun bits hb h => ?_,
    fun digits hd => ⟨?_, ?_⟩⟩
  · obtain ⟨h1, -, h2⟩ := Division.addn_spec (Division.Mem.words m a n) (Division.Mem.words m b n) 0 (by rw [hl, hl]) (by decide)
    rw [hl] at h1 h2
    exact ⟨_, _, Division.Mem.addn_eq n c a b 0 m h h', h1, h2⟩
  · obtain ⟨h1, -, h2⟩ := Division.subn_spec (Division.Mem.words m a n) (Division.Mem.words m b n) 0 (by rw [hl, hl]) (by decide)
    rw [hl] at h1 h2
    exact ⟨_, _, Division.Mem.subn_eq n c a b 0 m h h', h1, h2⟩
  · obtain ⟨h1, h2⟩ := Division.mul1_spec digit (Division.Mem.words m a n) 0
    rw [hl] at h1 h2
    exact ⟨_, _, Division.Mem.mul1_eq digit n c a 0 m h, h1, h2⟩
  · obtain ⟨h1, h2⟩ := Division.Mem.add1_any (Division.Mem.words m a n) digit
    rw [hl] at h1 h2
    exact ⟨_, _, Division.Mem.add1_eq n c a digit m h, h1, h2⟩
  · obtain ⟨h1, h2⟩ := Division.Mem.sub1_any (Division.Mem.words m a n) digit
    rw [hl] at h1 h2
    exact ⟨_, _, Division.Mem.sub1_eq n c a digit m h, h1, h2⟩
  · obtain ⟨h1, -, h2⟩ := Division.lshb_spec h0 hb (Division.Mem.words m a n) 0 (by simp)
    rw [hl] at h1 h2
    exact ⟨_, _, Division.Mem.lshb_eq bits n c a 0 m h, h1, h2⟩
  · obtain ⟨h1, h2, h3⟩ := Division.rshb_spec hb (Division.Mem.words m a n)
    rw [hl] at h1
    exact ⟨_, _, Division.Mem.rshb_eq bits n c a m h, h1, h3, h2⟩
  · obtain ⟨k, rfl⟩ : ∃ k, n = k + digits := ⟨n - digits, by omega⟩
    rw [Division.Mem.lshd_eq c _ digits hd, Division.lshd, hl, Nat.add_sub_cancel, ← Division.Mem.words_take]
  · obtain ⟨k, rfl⟩ : ∃ k, n = k + digits := ⟨n - digits, by omega⟩
    rw [Division.Mem.rshd_eq c _ digits hd, Division.rshd, Nat.add_sub_cancel, ← Division.Mem.words_drop]

/-- In place, and into a range behind the operand. -/
example : Division.Mem.Up 5 5 3 ∧ Division.Mem.Up 8 5 3 ∧ Division.Mem.Down 5 5 3 ∧ ¬ Division.Mem.Up 6 5 3 := by
  unfold Division.Mem.Up Division.Mem.Down
  omega

/-- A destination one word above the operand is overwritten while it is read. -/
example : Division.Mem.moveUp 3 1 0 (fun k => UInt64.ofNat k) 3 = 0 := by decide +kernel

end Bls.Props
