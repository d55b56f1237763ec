import Verif.Model.DivisionMem
import Verif.Proof.Alias
import Verif.Proof.DivisionWords
import Verif.Spec.Memory
import Mathlib.Tactic.Set
import Mathlib.Data.List.Basic

/-!
# The word loops on memory equal the functions on lists
-/

namespace Bls.Division.Mem
open Heap

theorem write_of_lt (m : Heap ℕ UInt64) (ws : List UInt64) : ∀ (c k : ℕ), k < c → write m c ws k = m k := by
  induction ws generalizing m with
  | nil => intro c k _; rfl
  | cons w ws ih =>
    intro c k h
    rw [write, ih _ _ _ (by omega), put_ne _ (by omega)]

theorem write_of_ge (ws : List UInt64) : ∀ (m : Heap ℕ UInt64) (c k : ℕ), c + ws.length ≤ k → write m c ws k = m k := by
  induction ws with
  | nil => intro m c k _; rfl
  | cons w ws ih =>
    intro m c k h
    rw [List.length_cons] at h
    rw [write, ih _ _ _ (by omega), put_ne _ (by omega)]

/-- Word `i` of the written range. -/
theorem write_get (ws : List UInt64) : ∀ (m : Heap ℕ UInt64) (c i : ℕ) (h : i < ws.length), write m c ws (c + i) = ws[i] := by
  induction ws with
  | nil => intro m c i h; exact absurd h (by simp)
  | cons w ws ih =>
    intro m c i h
    cases i with
    | zero => rw [write, Nat.add_zero, write_of_lt _ _ _ _ (by omega)]; exact put_self _ _ _
    | succ i =>
      rw [write, show c + (i + 1) = c + 1 + i by omega, ih _ _ _ (by simpa using h)]
      rfl

theorem words_length (m : Heap ℕ UInt64) (n : ℕ) : ∀ a, (words m a n).length = n := by
  induction n with
  | zero => intro a; rfl
  | succ n ih => intro a; rw [words, List.length_cons, ih]

theorem words_get (m : Heap ℕ UInt64) (n : ℕ) : ∀ a i (h : i < (words m a n).length), (words m a n)[i] = m (a + i) := by
  induction n with
  | zero => intro a i h; exact absurd h (by simp [words])
  | succ n ih =>
    intro a i h
    cases i with
    | zero => rfl
    | succ i =>
      have h' : i < (words m (a + 1) n).length := by simpa [words] using h
      have := ih (a + 1) i h'
      rw [show a + (i + 1) = a + 1 + i by omega, ← this]
      rfl

theorem words_congr {m m' : Heap ℕ UInt64} (n : ℕ) : ∀ a, (∀ k, a ≤ k → k < a + n → m k = m' k) →
    words m a n = words m' a n := by
  induction n with
  | zero => intro a _; rfl
  | succ n ih =>
    intro a h
    rw [words, words, h a (Nat.le_refl a) (by omega), ih (a + 1) fun k h1 h2 => h k (by omega) (by omega)]

theorem words_put {c a n : ℕ} (h : Up c a (n + 1)) (m : Heap ℕ UInt64) (v : UInt64) :
    words (m.put c v) (a + 1) n = words m (a + 1) n := by
  refine words_congr n _ fun k h1 h2 => put_ne _ ?_ _
  rcases h with h | h <;> omega

theorem Up.succ {c a n : ℕ} (h : Up c a (n + 1)) : Up (c + 1) (a + 1) n := by
  rcases h with h | h
  · left; omega
  · right; omega

theorem lshb_eq (bits n : ℕ) : ∀ (c a : ℕ) (carry : UInt64) (m : Heap ℕ UInt64), Up c a n →
    lshb bits n c a carry m =
      (write m c (Division.lshb bits (words m a n) carry).1, (Division.lshb bits (words m a n) carry).2) := by
  induction n with
  | zero => intro c a carry m _; rfl
  | succ n ih =>
    intro c a carry m h
    rw [lshb, words, Division.lshb]
    dsimp only
    rw [ih _ _ _ _ h.succ, words_put h]
    rfl

theorem subn_eq (n : ℕ) : ∀ (c a b : ℕ) (carry : UInt64) (m : Heap ℕ UInt64), Up c a n → Up c b n →
    subn n c a b carry m = (write m c (Division.subn (words m a n) (words m b n) carry).1,
      (Division.subn (words m a n) (words m b n) carry).2) := by
  induction n with
  | zero => intro c a b carry m _ _; rfl
  | succ n ih =>
    intro c a b carry m h h'
    rw [subn, words, words, Division.subn]
    dsimp only
    rw [ih _ _ _ _ _ h.succ h'.succ, words_put h, words_put h']
    rfl

theorem addn_eq (n : ℕ) : ∀ (c a b : ℕ) (carry : UInt64) (m : Heap ℕ UInt64), Up c a n → Up c b n →
    addn n c a b carry m = (write m c (Division.addn (words m a n) (words m b n) carry).1,
      (Division.addn (words m a n) (words m b n) carry).2) := by
  induction n with
  | zero => intro c a b carry m _ _; rfl
  | succ n ih =>
    intro c a b carry m h h'
    rw [addn, words, words, Division.addn]
    dsimp only
    rw [ih _ _ _ _ _ h.succ h'.succ, words_put h, words_put h']
    rfl

theorem mul1_eq (digit : UInt64) (n : ℕ) : ∀ (c a : ℕ) (carry : UInt64) (m : Heap ℕ UInt64), Up c a n →
    mul1 digit n c a carry m =
      (write m c (Division.mul1 digit (words m a n) carry).1, (Division.mul1 digit (words m a n) carry).2) := by
  induction n with
  | zero => intro c a carry m _; rfl
  | succ n ih =>
    intro c a carry m h
    rw [mul1, words, Division.mul1]
    dsimp only
    rw [put_self, ih _ _ _ _ h.succ, words_put h]
    rfl

theorem moveUp_eq (n : ℕ) : ∀ (c a : ℕ) (m : Heap ℕ UInt64), Up c a n → moveUp n c a m = write m c (words m a n) := by
  induction n with
  | zero => intro c a m _; rfl
  | succ n ih =>
    intro c a m h
    rw [moveUp, words, write, ih _ _ _ h.succ, words_put h]

theorem sub1_eq (n : ℕ) : ∀ (c a : ℕ) (carry : UInt64) (m : Heap ℕ UInt64), Up c a n →
    sub1 n c a carry m =
      (write m c (Division.sub1 (words m a n) carry).1, (Division.sub1 (words m a n) carry).2) := by
  induction n with
  | zero => intro c a carry m _; rfl
  | succ n ih =>
    intro c a carry m h
    rw [sub1]
    conv_rhs => rw [words, Division.sub1]
    by_cases hc : carry = 0
    · rw [if_pos hc, if_pos hc, moveUp_eq _ _ _ _ h]
      rfl
    · rw [if_neg hc, if_neg hc]
      dsimp only
      rw [ih _ _ _ _ h.succ, words_put h]
      rfl

theorem add1_eq (n : ℕ) : ∀ (c a : ℕ) (carry : UInt64) (m : Heap ℕ UInt64), Up c a n →
    add1 n c a carry m =
      (write m c (Division.add1 (words m a n) carry).1, (Division.add1 (words m a n) carry).2) := by
  induction n with
  | zero => intro c a carry m _; rfl
  | succ n ih =>
    intro c a carry m h
    rw [add1]
    conv_rhs => rw [words, Division.add1]
    by_cases hc : carry = 0
    · rw [if_pos hc, if_pos hc, moveUp_eq _ _ _ _ h]
      rfl
    · rw [if_neg hc, if_neg hc]
      dsimp only
      rw [ih _ _ _ _ h.succ, words_put h]
      rfl

/-! ## Loops downwards -/

theorem words_snoc (m : Heap ℕ UInt64) (n : ℕ) : ∀ a, words m a (n + 1) = words m a n ++ [m (a + n)] := by
  induction n with
  | zero => intro a; rfl
  | succ n ih =>
    intro a
    rw [words, ih, words, show a + 1 + n = a + (n + 1) by omega]
    rfl

theorem write_snoc (ws : List UInt64) (w : UInt64) : ∀ (m : Heap ℕ UInt64) (c : ℕ),
    write m c (ws ++ [w]) = (write m c ws).put (c + ws.length) w := by
  induction ws with
  | nil => intro m c; rfl
  | cons v ws ih =>
    intro m c
    rw [List.cons_append, write, ih, write, List.length_cons, show c + 1 + ws.length = c + (ws.length + 1) by omega]

theorem write_put_comm (ws : List UInt64) : ∀ (m : Heap ℕ UInt64) (c k : ℕ) (v : UInt64), k < c ∨ c + ws.length ≤ k →
    write (m.put k v) c ws = (write m c ws).put k v := by
  intro m c k v h
  funext j
  by_cases hj : j = k
  · subst hj
    rw [put_self]
    rcases h with h | h
    · rw [write_of_lt _ _ _ _ h, put_self]
    · rw [write_of_ge _ _ _ _ h, put_self]
  · rw [put_ne _ hj]
    by_cases h1 : j < c
    · rw [write_of_lt _ _ _ _ h1, write_of_lt _ _ _ _ h1, put_ne _ hj]
    · by_cases h2 : c + ws.length ≤ j
      · rw [write_of_ge _ _ _ _ h2, write_of_ge _ _ _ _ h2, put_ne _ hj]
      · obtain ⟨i, rfl⟩ : ∃ i, j = c + i := ⟨j - c, by omega⟩
        rw [write_get _ _ _ _ (by omega), write_get _ _ _ _ (by omega)]

theorem words_put_top {c a n : ℕ} (h : Down c a (n + 1)) (m : Heap ℕ UInt64) (v : UInt64) :
    words (m.put (c + n) v) a n = words m a n := by
  refine words_congr n _ fun k h1 h2 => put_ne _ ?_ _
  rcases h with h | h <;> omega

theorem Down.pred {c a n : ℕ} (h : Down c a (n + 1)) : Down c a n := by
  rcases h with h | h
  · left; omega
  · right; omega

theorem moveDown_eq (n : ℕ) : ∀ (c a : ℕ) (m : Heap ℕ UInt64), Down c a n →
    moveDown n (c + n) (a + n) m = write m c (words m a n) := by
  induction n with
  | zero => intro c a m _; rfl
  | succ n ih =>
    intro c a m h
    rw [moveDown, show c + (n + 1) - 1 = c + n by omega, show a + (n + 1) - 1 = a + n by omega, ih _ _ _ h.pred,
      words_put_top h, words_snoc, write_snoc, words_length, write_put_comm _ _ _ _ _ (by right; rw [words_length])]

theorem clear_eq (n : ℕ) : ∀ (c : ℕ) (m : Heap ℕ UInt64), clear n c m = write m c (List.replicate n 0) := by
  induction n with
  | zero => intro c m; rfl
  | succ n ih => intro c m; rw [clear, ih, List.replicate_succ, write]

theorem write_append (us vs : List UInt64) : ∀ (m : Heap ℕ UInt64) (c : ℕ),
    write m c (us ++ vs) = write (write m c us) (c + us.length) vs := by
  induction us with
  | nil => intro m c; rfl
  | cons u us ih =>
    intro m c
    rw [List.cons_append, write, ih, write, List.length_cons, show c + 1 + us.length = c + (us.length + 1) by omega]

theorem write_comm (us : List UInt64) : ∀ (m : Heap ℕ UInt64) (c d : ℕ) (vs : List UInt64),
    c + us.length ≤ d ∨ d + vs.length ≤ c → write (write m d vs) c us = write (write m c us) d vs := by
  induction us with
  | nil => intro m c d vs _; rfl
  | cons u us ih =>
    intro m c d vs h
    rw [List.length_cons] at h
    rw [write, write, ← write_put_comm vs m d c u (by omega), ih _ _ _ _ (by omega)]

theorem words_take (m : Heap ℕ UInt64) (n k : ℕ) (a : ℕ) : words m a n = (words m a (n + k)).take n := by
  induction n generalizing a with
  | zero => simp [words]
  | succ n ih =>
    rw [words, show n + 1 + k = n + k + 1 by omega, words, List.take_succ_cons, ← ih]

theorem words_drop (m : Heap ℕ UInt64) (n k : ℕ) (a : ℕ) : words m (a + k) n = (words m a (n + k)).drop k := by
  induction k generalizing a with
  | zero => simp
  | succ k ih =>
    rw [show n + (k + 1) = n + k + 1 by omega, words, List.drop_succ_cons, ← ih, show a + (k + 1) = a + 1 + k by omega]

/-- `dv_lshd` in place. -/
theorem lshd_eq (c size digits : ℕ) (hd : digits ≤ size) (m : Heap ℕ UInt64) :
    lshd c c size digits m = write m c (Division.lshd (words m c size) digits) := by
  obtain ⟨n, rfl⟩ : ∃ n, size = n + digits := ⟨size - digits, by omega⟩
  unfold lshd
  rw [show n + digits - digits = n by omega, show c + (n + digits) - digits = c + n by omega,
    show c + (n + digits) = c + digits + n by omega, moveDown_eq _ _ _ _ (Or.inl (by omega)), clear_eq,
    write_comm _ _ _ _ _ (by left; rw [List.length_replicate]), Division.lshd, write_append, List.length_replicate,
    words_length, show n + digits - digits = n by omega, ← words_take]

/-- `dv_rshd` in place. -/
theorem rshd_eq (c size digits : ℕ) (hd : digits ≤ size) (m : Heap ℕ UInt64) :
    rshd c c size digits m = write m c (Division.rshd (words m c size) digits) := by
  obtain ⟨n, rfl⟩ : ∃ n, size = n + digits := ⟨size - digits, by omega⟩
  unfold rshd
  rw [show n + digits - digits = n by omega, moveUp_eq _ _ _ _ (Or.inl (by omega)), clear_eq, Division.rshd,
    write_append, ← words_drop, words_length]

theorem rshb_length (bits : ℕ) (l : List UInt64) : (Division.rshb bits l).1.length = l.length := by
  induction l with
  | nil => rfl
  | cons a l ih => rw [Division.rshb, List.length_cons, List.length_cons, ih]

/-- The loop from the top down on lists. -/
def rshbFrom (bits : ℕ) : List UInt64 → UInt64 → List UInt64 × UInt64
  | [], carry => ([], carry)
  | a :: as, carry =>
    let r := rshbFrom bits as carry
    (((a >>> UInt64.ofNat bits) ||| (r.2 <<< UInt64.ofNat ((64 - bits) % 64))) :: r.1, a &&& mask bits)

theorem rshbFrom_zero (bits : ℕ) (l : List UInt64) : rshbFrom bits l 0 = Division.rshb bits l := by
  induction l with
  | nil => rfl
  | cons a l ih => rw [rshbFrom, ih, Division.rshb]

theorem rshbFrom_length (bits : ℕ) (l : List UInt64) (c : UInt64) : (rshbFrom bits l c).1.length = l.length := by
  induction l with
  | nil => rfl
  | cons a l ih => rw [rshbFrom, List.length_cons, List.length_cons, ih]

theorem rshbFrom_snoc (bits : ℕ) (l : List UInt64) (a carry : UInt64) : rshbFrom bits (l ++ [a]) carry =
    ((rshbFrom bits l (a &&& mask bits)).1 ++ [(a >>> UInt64.ofNat bits) ||| (carry <<< UInt64.ofNat ((64 - bits) % 64))],
      (rshbFrom bits l (a &&& mask bits)).2) := by
  induction l with
  | nil => rfl
  | cons b l ih => rw [List.cons_append, rshbFrom, ih, rshbFrom]; rfl

theorem rshb_eq' (bits n : ℕ) : ∀ (c a : ℕ) (carry : UInt64) (m : Heap ℕ UInt64), Down c a n →
    rshb bits n (c + n) (a + n) carry m =
      (write m c (rshbFrom bits (words m a n) carry).1, (rshbFrom bits (words m a n) carry).2) := by
  induction n with
  | zero => intro c a carry m _; rfl
  | succ n ih =>
    intro c a carry m h
    rw [rshb, show c + (n + 1) - 1 = c + n by omega, show a + (n + 1) - 1 = a + n by omega]
    rw [ih _ _ _ _ h.pred, words_put_top h, words_snoc, rshbFrom_snoc]
    rw [write_snoc, rshbFrom_length, words_length,
      write_put_comm _ _ _ _ _ (by right; rw [rshbFrom_length, words_length])]

theorem rshb_eq (bits n c a : ℕ) (m : Heap ℕ UInt64) (h : Down c a n) :
    rshb bits n (c + n) (a + n) 0 m =
      (write m c (Division.rshb bits (words m a n)).1, (Division.rshb bits (words m a n)).2) := by
  rw [rshb_eq' _ _ _ _ _ _ h, rshbFrom_zero]


/-- `sub1` for every digit. -/
theorem sub1_any (x : List UInt64) (c : UInt64) : (Division.sub1 x c).1.length = x.length ∧
    wordsVal (Division.sub1 x c).1 + c.toNat = wordsVal x + 2 ^ (64 * x.length) * (Division.sub1 x c).2.toNat := by
  cases x with
  | nil => simp [Division.sub1, wordsVal]
  | cons a as =>
    rw [Division.sub1]
    split_ifs with h0
    · subst h0; simp
    · have hc' : (if a - c > a then (1 : UInt64) else 0).toNat ≤ 1 := by split <;> decide
      obtain ⟨i1, -, i3⟩ := Division.sub1_spec as _ hc'
      refine ⟨by simp only [List.length_cons, i1], ?_⟩
      have key : (a - c).toNat + c.toNat = a.toNat + 2 ^ 64 * (if a - c > a then (1 : UInt64) else 0).toNat := by
        have h1 : c.toNat ≠ 0 := fun e => h0 (UInt64.toNat_inj.1 e)
        have ha := u64_lt a
        have hc := u64_lt c
        rw [UInt64.toNat_sub]
        split
        · rename_i h; rw [gt_iff_lt, UInt64.lt_iff_toNat_lt, UInt64.toNat_sub] at h; rw [UInt64.toNat_one]; omega
        · rename_i h; rw [gt_iff_lt, UInt64.lt_iff_toNat_lt, UInt64.toNat_sub] at h; rw [UInt64.toNat_zero]; omega
      simp only [wordsVal, List.length_cons]
      rw [show 64 * (as.length + 1) = 64 + 64 * as.length by ring, pow_add]
      generalize (if a - c > a then (1 : UInt64) else 0) = c' at *
      linear_combination key + 2 ^ 64 * i3

/-- `add1` for every digit. -/
theorem add1_any (x : List UInt64) (c : UInt64) : (Division.add1 x c).1.length = x.length ∧
    wordsVal (Division.add1 x c).1 + 2 ^ (64 * x.length) * (Division.add1 x c).2.toNat = wordsVal x + c.toNat := by
  cases x with
  | nil => simp [Division.add1, wordsVal]
  | cons a as =>
    rw [Division.add1]
    split_ifs with h0
    · subst h0; simp
    · have hc' : (if a + c < c then (1 : UInt64) else 0).toNat ≤ 1 := by split <;> decide
      obtain ⟨i1, i3⟩ := Division.add1_spec as _ hc'
      refine ⟨by simp only [List.length_cons, i1], ?_⟩
      have key : (a + c).toNat + 2 ^ 64 * (if a + c < c then (1 : UInt64) else 0).toNat = a.toNat + c.toNat := by
        have ha := u64_lt a
        have hc := u64_lt c
        rw [UInt64.toNat_add]
        split
        · rename_i h; rw [UInt64.lt_iff_toNat_lt, UInt64.toNat_add] at h; rw [UInt64.toNat_one]; omega
        · rename_i h; rw [UInt64.lt_iff_toNat_lt, UInt64.toNat_add] at h; rw [UInt64.toNat_zero]; omega
      simp only [wordsVal, List.length_cons]
      rw [show 64 * (as.length + 1) = 64 + 64 * as.length by ring, pow_add]
      generalize (if a + c < c then (1 : UInt64) else 0) = c' at *
      linear_combination key + 2 ^ 64 * i3

end Bls.Division.Mem
