import Verif.Model.Overlay
import Verif.Spec.Buffers
import Verif.Proof.Bytes
import Mathlib.Data.List.GetD

/-! Serialisation into memory that overlaps the object. -/

namespace Bls.Overlay
open Rfc (bytes Wrote)

theorem store_nil (m : Mem) (a : ℕ) : store m a [] = m := by
  funext x
  rw [store, if_neg]
  rw [List.length_nil]
  omega

theorem store_append (m : Mem) (a n : ℕ) (u v : List UInt8) (hn : n = u.length) :
    store (store m a u) (a + n) v = store m a (u ++ v) := by
  subst hn
  funext x
  simp only [store, List.length_append]
  by_cases h1 : a + u.length ≤ x ∧ x < a + u.length + v.length
  · rw [if_pos h1, if_pos ⟨by omega, by omega⟩, List.getD_append_right _ _ _ _ (by omega)]
    congr 1
    omega
  · rw [if_neg h1]
    by_cases h2 : a ≤ x ∧ x < a + u.length
    · rw [if_pos h2, if_pos ⟨h2.1, by omega⟩, List.getD_append _ _ _ _ (by omega)]
    · rw [if_neg h2, if_neg (by omega)]

theorem bytes_length (f : ℕ → UInt8) (a n : ℕ) : (bytes f a n).length = n := by simp [bytes]

theorem bytes_add (f : ℕ → UInt8) (a n k : ℕ) : bytes f a (n + k) = bytes f a n ++ bytes f (a + n) k := by
  simp only [bytes, List.range_add, List.map_append, List.map_map]
  congr 1
  exact List.map_congr_left fun i _ => by simp [Nat.add_assoc]

theorem bytes_store (m : Mem) (a : ℕ) (bs : List UInt8) : bytes (store m a bs) a bs.length = bs := by
  apply List.ext_getElem (by rw [bytes_length])
  intro i h1 h2
  simp only [bytes, List.getElem_map, List.getElem_range]
  rw [store, if_pos ⟨by omega, by omega⟩, Nat.add_sub_cancel_left, List.getD_eq_getElem _ _ h2]

theorem wrote_store (m : Mem) (a : ℕ) (bs : List UInt8) : Wrote m (store m a bs) a bs :=
  ⟨bytes_store m a bs, fun x hx => by rw [store, if_neg (by omega)]⟩

theorem wrote_of {m m' : Mem} {a : ℕ} {bs : List UInt8} (e : m' = store m a bs) : Wrote m m' a bs := e ▸ wrote_store m a bs

/-- Storing what is there. -/
theorem store_bytes (m : Mem) (a n : ℕ) : store m a (bytes m a n) = m := by
  funext x
  rw [store, bytes_length]
  split
  · rename_i h
    rw [List.getD_eq_getElem _ _ (by rw [bytes_length]; omega)]
    simp only [bytes, List.getElem_map, List.getElem_range]
    congr 1
    omega
  · rfl

/-- `n` steps; step `i` reads `s` bytes from `σ i` and stores as many from `dst + s * i` on. -/
def steps (val : Mem → ℕ → List UInt8) (s : ℕ) (σ : ℕ → ℕ) (dst : ℕ) (m : Mem) : ℕ → Mem
  | 0 => m
  | n + 1 => store (steps val s σ dst m n) (dst + s * n) (val (steps val s σ dst m n) (σ n))

/-- The value read depends on `s` bytes and has `s` bytes. -/
def Reads (val : Mem → ℕ → List UInt8) (s : ℕ) : Prop :=
  (∀ m m' a, (∀ x, a ≤ x → x < a + s → m x = m' x) → val m a = val m' a) ∧ ∀ m a, (val m a).length = s

theorem flat_length {val : Mem → ℕ → List UInt8} {s : ℕ} (hv : Reads val s) (m : Mem) (σ : ℕ → ℕ) (n : ℕ) :
    ((List.range n).flatMap fun i => val m (σ i)).length = s * n := by
  induction n with
  | zero => rfl
  | succ n ih => simp [List.range_succ, List.flatMap_append, ih, hv.2, Nat.mul_succ]

theorem steps_eq {val : Mem → ℕ → List UInt8} {s : ℕ} (hv : Reads val s) {σ : ℕ → ℕ} {dst : ℕ} (m : Mem) {n : ℕ}
    (h : ∀ i < n, ∀ x, σ i ≤ x → x < σ i + s → dst ≤ x → x < dst + s * i → False) :
    steps val s σ dst m n = store m dst ((List.range n).flatMap fun i => val m (σ i)) := by
  induction n with
  | zero => exact (store_nil m dst).symm
  | succ n ih =>
    rw [steps, ih (fun i hi => h i (by omega)), List.range_succ, List.flatMap_append, List.flatMap_singleton,
      ← store_append m dst (s * n) _ _ (flat_length hv m σ n).symm]
    congr 1
    refine hv.1 _ _ _ fun x h1 h2 => ?_
    rw [store, flat_length hv, if_neg fun h3 => h n (by omega) x h1 h2 h3.1 h3.2]

/-! ### Words -/

theorem word_eq (m : Mem) (a : ℕ) :
    word m a = Scalar.leWord (m a) (m (a + 1)) (m (a + 2)) (m (a + 3)) (m (a + 4)) (m (a + 5)) (m (a + 6)) (m (a + 7)) := by
  apply UInt64.toNat_inj.1
  rw [Scalar.leWord_toNat, word]
  have e : (List.range 8).foldr (fun j t => (m (a + j)).toNat + 256 * t) 0 = leVal [m a, m (a + 1), m (a + 2), m (a + 3),
    m (a + 4), m (a + 5), m (a + 6), m (a + 7)] := rfl
  rw [e, UInt64.toNat_ofNat', Nat.mod_eq_of_lt]
  rw [← Scalar.leWord_toNat]
  exact UInt64.toNat_lt _

theorem word_toNat (m : Mem) (a : ℕ) : (word m a).toNat = leVal (bytes m a 8) := by
  rw [word_eq, Scalar.leWord_toNat]
  rfl

theorem byte_of (m : Mem) (a j : ℕ) (hj : j < 8) : leVal (bytes m a 8) / 256 ^ j % 256 = (m (a + j)).toNat := by
  have e : leVal (bytes m a 8) = (m a).toNat + 256 * ((m (a + 1)).toNat + 256 * ((m (a + 2)).toNat + 256 *
    ((m (a + 3)).toNat + 256 * ((m (a + 4)).toNat + 256 * ((m (a + 5)).toNat + 256 * ((m (a + 6)).toNat + 256 *
    ((m (a + 7)).toNat + 256 * 0))))))) := rfl
  rw [e]
  have h0 := (m a).toNat_lt
  have h1 := (m (a + 1)).toNat_lt
  have h2 := (m (a + 2)).toNat_lt
  have h3 := (m (a + 3)).toNat_lt
  have h4 := (m (a + 4)).toNat_lt
  have h5 := (m (a + 5)).toNat_lt
  have h6 := (m (a + 6)).toNat_lt
  have h7 := (m (a + 7)).toNat_lt
  obtain rfl | rfl | rfl | rfl | rfl | rfl | rfl | rfl : j = 0 ∨ j = 1 ∨ j = 2 ∨ j = 3 ∨ j = 4 ∨ j = 5 ∨ j = 6 ∨ j = 7 := by
    omega
  all_goals simp only [Nat.reducePow, Nat.add_zero]; omega

theorem byte_word (m : Mem) (a j : ℕ) (hj : j < 8) : (word m a >>> UInt64.ofNat (8 * j)).toUInt8 = m (a + j) := by
  apply UInt8.toNat_inj.1
  have hk : (UInt64.ofNat (8 * j)).toNat = 8 * j := by
    rw [UInt64.toNat_ofNat', Nat.mod_eq_of_lt]
    omega
  rw [UInt64.toNat_toUInt8, UInt64.toNat_shiftRight, hk, Nat.mod_eq_of_lt (show 8 * j < 64 by omega), Nat.shiftRight_eq_div_pow,
    Nat.pow_mul, word_toNat]
  exact byte_of m a j hj

/-- Eight bytes, combined to a word and stored. -/
theorem setWord_leWord (m : Mem) (a : ℕ) (f : Mem) (b : ℕ) :
    setWord m a (Scalar.leWord (f b) (f (b + 1)) (f (b + 2)) (f (b + 3)) (f (b + 4)) (f (b + 5)) (f (b + 6)) (f (b + 7))) =
      store m a (bytes f b 8) := by
  rw [setWord]
  congr 1
  refine List.map_congr_left fun j hj => ?_
  apply UInt8.toNat_inj.1
  rw [← word_eq, word_toNat, UInt8.toNat_ofNat']
  exact byte_of f b j (List.mem_range.1 hj)

theorem fpAt_congr {m m' : Mem} {a b : ℕ} (h : ∀ i < 48, m (a + i) = m' (b + i)) : fpAt m a = fpAt m' b := by
  have w : ∀ k, k + 8 ≤ 48 → word m (a + k) = word m' (b + k) := fun k hk => by
    rw [word_eq, word_eq]
    simp only [Nat.add_assoc]
    congr 1 <;> exact h _ (by omega)
  have w0 := w 0 (by omega)
  rw [Nat.add_zero, Nat.add_zero] at w0
  rw [fpAt, fpAt, w0, w 8 (by omega), w 16 (by omega), w 24 (by omega), w 32 (by omega), w 40 (by omega)]

theorem fp2At_congr {m m' : Mem} {a b : ℕ} (h : ∀ i < 96, m (a + i) = m' (b + i)) : fp2At m a = fp2At m' b := by
  rw [fp2At, fp2At, fpAt_congr (fun i hi => h i (by omega)),
    fpAt_congr (a := a + 48) (b := b + 48) (m' := m') fun i hi => by
      rw [Nat.add_assoc, Nat.add_assoc]; exact h _ (by omega)]

theorem fp6At_congr {m m' : Mem} {a b : ℕ} (h : ∀ i < 288, m (a + i) = m' (b + i)) : fp6At m a = fp6At m' b := by
  rw [fp6At, fp6At, fp2At_congr (fun i hi => h i (by omega)),
    fp2At_congr (a := a + 96) (b := b + 96) (m' := m') fun i hi => by
      rw [Nat.add_assoc, Nat.add_assoc]; exact h _ (by omega),
    fp2At_congr (a := a + 192) (b := b + 192) (m' := m') fun i hi => by
      rw [Nat.add_assoc, Nat.add_assoc]; exact h _ (by omega)]

/-! ### The loops of `scalar` -/

/-- One byte. -/
def one (m : Mem) (a : ℕ) : List UInt8 := [m a]

theorem one_reads : Reads one 1 := ⟨fun _ _ a h => by rw [one, one, h a (by omega) (by omega)], fun _ _ => rfl⟩

theorem toBytesLE_steps (inp out : ℕ) (m : Mem) (N : ℕ) :
    toBytesLE N inp out m = steps one 1 (fun i => inp + i) out m (8 * N) := by
  induction N with
  | zero => rfl
  | succ n ih =>
    rw [toBytesLE, List.range_succ (n := n), List.foldl_append]
    rw [toBytesLE] at ih
    rw [ih, show 8 * (n + 1) = 8 * n + 1 + 1 + 1 + 1 + 1 + 1 + 1 + 1 by omega]
    generalize e : steps one 1 (fun i => inp + i) out m (8 * n) = f
    have hr : List.range 8 = [0, 1, 2, 3, 4, 5, 6, 7] := rfl
    simp only [steps, e, List.foldl_cons, List.foldl_nil, hr, one]
    simp only [byte_word _ _ 0 (by omega), byte_word _ _ 1 (by omega), byte_word _ _ 2 (by omega), byte_word _ _ 3 (by omega),
      byte_word _ _ 4 (by omega), byte_word _ _ 5 (by omega), byte_word _ _ 6 (by omega), byte_word _ _ 7 (by omega)]
    simp only [Nat.one_mul, Nat.add_assoc, Nat.mul_comm n 8, Nat.add_zero]

theorem toBytesBE_steps_aux (inp out : ℕ) (m : Mem) (N n : ℕ) (hn : n ≤ N) :
    (List.range n).foldl (fun m i => (List.range 8).foldl (fun m j =>
      store m (out + (i * 8 + j)) [(word m (inp + 8 * (N - 1 - i)) >>> UInt64.ofNat (56 - 8 * j)).toUInt8]) m) m =
      steps one 1 (fun i => inp + (8 * N - 1 - i)) out m (8 * n) := by
  induction n with
  | zero => rfl
  | succ n ih =>
    rw [List.range_succ (n := n), List.foldl_append, ih (by omega), show 8 * (n + 1) = 8 * n + 1 + 1 + 1 + 1 + 1 + 1 + 1 + 1 by omega]
    generalize e : steps one 1 (fun i => inp + (8 * N - 1 - i)) out m (8 * n) = f
    have hr : List.range 8 = [0, 1, 2, 3, 4, 5, 6, 7] := rfl
    simp only [steps, e, List.foldl_cons, List.foldl_nil, hr, one]
    have b : ∀ (m : Mem) (j : ℕ), j < 8 → (word m (inp + 8 * (N - 1 - n)) >>> UInt64.ofNat (56 - 8 * j)).toUInt8 =
        m (inp + (8 * N - 1 - (8 * n + j))) := fun m j hj => by
      rw [show 56 - 8 * j = 8 * (7 - j) by omega, byte_word _ _ _ (by omega)]
      congr 1
      omega
    simp only [b _ 0 (by omega), b _ 1 (by omega), b _ 2 (by omega), b _ 3 (by omega), b _ 4 (by omega), b _ 5 (by omega),
      b _ 6 (by omega), b _ 7 (by omega)]
    simp only [Nat.one_mul, Nat.add_assoc, Nat.mul_comm n 8, Nat.add_zero]

theorem toBytesBE_steps (inp out : ℕ) (m : Mem) (N : ℕ) :
    toBytesBE N inp out m = steps one 1 (fun i => inp + (8 * N - 1 - i)) out m (8 * N) := toBytesBE_steps_aux inp out m N N le_rfl

/-- Eight bytes. -/
def eight (m : Mem) (a : ℕ) : List UInt8 := bytes m a 8

theorem bytes_congr {f g : ℕ → UInt8} {a n : ℕ} (h : ∀ x, a ≤ x → x < a + n → f x = g x) : bytes f a n = bytes g a n :=
  List.map_congr_left fun i hi => h _ (by omega) (by have := List.mem_range.1 hi; omega)

theorem eight_reads : Reads eight 8 := ⟨fun _ _ _ h => bytes_congr h, fun m a => bytes_length m a 8⟩

/-- Eight bytes in reverse. -/
def eightRev (m : Mem) (a : ℕ) : List UInt8 := (bytes m a 8).reverse

theorem eightRev_reads : Reads eightRev 8 :=
  ⟨fun _ _ _ h => congrArg _ (bytes_congr h), fun m a => by rw [eightRev, List.length_reverse, bytes_length]⟩

theorem fromBytesLE_steps (inp out : ℕ) (m : Mem) (N : ℕ) :
    fromBytesLE N inp out m = steps eight 8 (fun i => inp + 8 * i) out m N := by
  induction N with
  | zero => rfl
  | succ n ih =>
    rw [fromBytesLE, List.range_succ, List.foldl_append]
    rw [fromBytesLE] at ih
    rw [ih, steps, List.foldl_cons, List.foldl_nil]
    simp only [setWord_leWord, Nat.mul_comm n 8, eight]

theorem fromBytesBE_steps_aux (inp out : ℕ) (m : Mem) (N n : ℕ) (hn : n ≤ N) :
    (List.range n).foldl (fun m i =>
      let a := N * 8 - i * 8
      setWord m (out + 8 * i) (Scalar.leWord (m (inp + (a - 1))) (m (inp + (a - 2))) (m (inp + (a - 3))) (m (inp + (a - 4)))
        (m (inp + (a - 5))) (m (inp + (a - 6))) (m (inp + (a - 7))) (m (inp + (a - 8))))) m =
      steps eightRev 8 (fun i => inp + 8 * (N - 1 - i)) out m n := by
  induction n with
  | zero => rfl
  | succ n ih =>
    rw [List.range_succ, List.foldl_append, ih (by omega), steps, List.foldl_cons, List.foldl_nil]
    generalize steps eightRev 8 (fun i => inp + 8 * (N - 1 - i)) out m n = f
    have h := setWord_leWord f (out + 8 * n) (fun x => f (inp + 8 * (N - 1 - n) + 7 - x)) 0
    have e : bytes (fun x => f (inp + 8 * (N - 1 - n) + 7 - x)) 0 8 = eightRev f (inp + 8 * (N - 1 - n)) := rfl
    rw [e] at h
    rw [← h]
    dsimp only
    congr 2 <;> congr 1 <;> omega

theorem fromBytesBE_steps (inp out : ℕ) (m : Mem) (N : ℕ) :
    fromBytesBE N inp out m = steps eightRev 8 (fun i => inp + 8 * (N - 1 - i)) out m N := fromBytesBE_steps_aux inp out m N N le_rfl

theorem flat_one (m : Mem) (a n : ℕ) : ((List.range n).flatMap fun i => one m (a + i)) = bytes m a n := by
  rw [bytes, List.flatMap_def]
  induction n with
  | zero => rfl
  | succ n ih => rw [List.range_succ, List.map_append, List.flatten_append, ih, List.map_append]; rfl

theorem flat_one_rev (m : Mem) (a T n : ℕ) (h : n ≤ T) :
    ((List.range n).flatMap fun i => one m (a + (T - 1 - i))) = (bytes m (a + (T - n)) n).reverse := by
  induction n with
  | zero => rfl
  | succ n ih =>
    rw [List.range_succ, List.flatMap_append, ih (by omega), Nat.add_comm n 1, bytes_add, List.reverse_append,
      show a + (T - (1 + n)) + 1 = a + (T - n) by omega, List.flatMap_singleton]
    congr 1
    rw [one, show T - (1 + n) = T - 1 - n by omega]
    rfl

theorem flat_eight (m : Mem) (a n : ℕ) : ((List.range n).flatMap fun i => eight m (a + 8 * i)) = bytes m a (8 * n) := by
  induction n with
  | zero => rfl
  | succ n ih => rw [List.range_succ, List.flatMap_append, ih, List.flatMap_singleton, Nat.mul_succ, bytes_add, eight]

theorem flat_eight_rev (m : Mem) (a N n : ℕ) (h : n ≤ N) :
    ((List.range n).flatMap fun i => eightRev m (a + 8 * (N - 1 - i))) = (bytes m (a + 8 * (N - n)) (8 * n)).reverse := by
  induction n with
  | zero => rfl
  | succ n ih =>
    rw [List.range_succ, List.flatMap_append, ih (by omega), show 8 * (n + 1) = 8 + 8 * n by omega, bytes_add, List.reverse_append,
      show a + 8 * (N - (n + 1)) + 8 = a + 8 * (N - n) by omega, List.flatMap_singleton]
    congr 1
    rw [eightRev, show N - (n + 1) = N - 1 - n by omega]

theorem toBytesLE_eq {N inp out : ℕ} (m : Mem) (h : out ≤ inp ∨ inp + 8 * N ≤ out) :
    toBytesLE N inp out m = store m out (bytes m inp (8 * N)) := by
  rw [toBytesLE_steps, steps_eq one_reads m, flat_one]
  intro i hi x h1 h2 h3 h4
  omega

theorem fromBytesLE_eq {N inp out : ℕ} (m : Mem) (h : out ≤ inp ∨ inp + 8 * N ≤ out) :
    fromBytesLE N inp out m = store m out (bytes m inp (8 * N)) := by
  rw [fromBytesLE_steps, steps_eq eight_reads m, flat_eight]
  intro i hi x h1 h2 h3 h4
  omega

theorem toBytesBE_eq {N inp out : ℕ} (m : Mem) (h : inp + 8 * N ≤ out + 1 ∨ out + 8 * N ≤ inp + 1) :
    toBytesBE N inp out m = store m out (bytes m inp (8 * N)).reverse := by
  rw [toBytesBE_steps, steps_eq one_reads m, flat_one_rev m inp _ _ le_rfl, Nat.sub_self, Nat.add_zero]
  intro i hi x h1 h2 h3 h4
  omega

theorem fromBytesBE_eq {N inp out : ℕ} (m : Mem) (h : inp + 8 * N ≤ out + 8 ∨ out + 8 * N ≤ inp + 8) :
    fromBytesBE N inp out m = store m out (bytes m inp (8 * N)).reverse := by
  rw [fromBytesBE_steps, steps_eq eightRev_reads m, flat_eight_rev m inp _ _ le_rfl, Nat.sub_self, Nat.mul_zero, Nat.add_zero]
  intro i hi x h1 h2 h3 h4
  omega

/-! ### Big-endian in place -/

theorem store_rev (m : Mem) (a b L k : ℕ) (h : k < L) : store m a (bytes m b L).reverse (a + k) = m (b + (L - 1 - k)) := by
  rw [store, List.length_reverse, bytes_length, if_pos ⟨by omega, by omega⟩, Nat.add_sub_cancel_left,
    List.getD_eq_getElem _ _ (by rw [List.length_reverse, bytes_length]; exact h), List.getElem_reverse]
  simp only [bytes, List.getElem_map, List.getElem_range, List.length_map, List.length_range]

theorem store_above (m : Mem) (a x : ℕ) (bs : List UInt8) (h : a + bs.length ≤ x) : store m a bs x = m x := by
  rw [store, if_neg (by omega)]

theorem toBytesBE_self (N a : ℕ) (m : Mem) : toBytesBE N a a m = store m a (bytes m (a + 4 * N) (4 * N)).reverse := by
  have half : steps one 1 (fun i => a + (8 * N - 1 - i)) a m (4 * N) = store m a (bytes m (a + 4 * N) (4 * N)).reverse := by
    rw [steps_eq one_reads m, flat_one_rev m a _ _ (by omega), show 8 * N - 4 * N = 4 * N by omega]
    intro i hi x h1 h2 h3 h4
    omega
  have rest : ∀ k, k ≤ 4 * N → steps one 1 (fun i => a + (8 * N - 1 - i)) a m (4 * N + k) =
      store m a (bytes m (a + 4 * N) (4 * N)).reverse := by
    intro k
    induction k with
    | zero => exact fun _ => half
    | succ k ih =>
      intro hk
      rw [← Nat.add_assoc, steps, ih (by omega)]
      have e : one (store m a (bytes m (a + 4 * N) (4 * N)).reverse) (a + (8 * N - 1 - (4 * N + k))) =
          bytes (store m a (bytes m (a + 4 * N) (4 * N)).reverse) (a + 1 * (4 * N + k)) 1 := by
        rw [one, store_rev m a _ _ _ (by omega)]
        refine congrArg (fun u => [u]) ?_
        change _ = store m a (bytes m (a + 4 * N) (4 * N)).reverse (a + 1 * (4 * N + k) + 0)
        rw [store_above _ _ _ _ (by rw [List.length_reverse, bytes_length]; omega)]
        congr 1
        omega
      rw [e, store_bytes]
  have := rest (4 * N) le_rfl
  rw [toBytesBE_steps, show 8 * N = 4 * N + 4 * N by omega]
  rw [show 8 * N = 4 * N + 4 * N by omega] at this
  exact this

theorem fromBytesBE_self (N a : ℕ) (m : Mem) :
    fromBytesBE N a a m = store m a (bytes m (a + 8 * (N / 2)) (8 * (N - N / 2))).reverse := by
  have half : steps eightRev 8 (fun i => a + 8 * (N - 1 - i)) a m (N - N / 2) =
      store m a (bytes m (a + 8 * (N / 2)) (8 * (N - N / 2))).reverse := by
    rw [steps_eq eightRev_reads m, flat_eight_rev m a _ _ (by omega), show N - (N - N / 2) = N / 2 by omega]
    intro i hi x h1 h2 h3 h4
    omega
  have rest : ∀ k, k ≤ N / 2 → steps eightRev 8 (fun i => a + 8 * (N - 1 - i)) a m (N - N / 2 + k) =
      store m a (bytes m (a + 8 * (N / 2)) (8 * (N - N / 2))).reverse := by
    intro k
    induction k with
    | zero => exact fun _ => half
    | succ k ih =>
      intro hk
      rw [← Nat.add_assoc, steps, ih (by omega)]
      have e : eightRev (store m a (bytes m (a + 8 * (N / 2)) (8 * (N - N / 2))).reverse) (a + 8 * (N - 1 - (N - N / 2 + k))) =
          bytes (store m a (bytes m (a + 8 * (N / 2)) (8 * (N - N / 2))).reverse) (a + 8 * (N - N / 2 + k)) 8 := by
        apply List.ext_getElem (by rw [eightRev, List.length_reverse, bytes_length, bytes_length])
        intro j h1 h2
        rw [bytes_length] at h2
        simp only [eightRev, List.getElem_reverse]
        simp only [bytes, List.getElem_map, List.getElem_range, List.length_map, List.length_range]
        change store m a (bytes m (a + 8 * (N / 2)) (8 * (N - N / 2))).reverse _ =
          store m a (bytes m (a + 8 * (N / 2)) (8 * (N - N / 2))).reverse _
        rw [Nat.add_assoc a, store_rev m a _ _ _ (by omega), store_above _ _ _ _ (by rw [List.length_reverse, bytes_length]; omega)]
        congr 1
        omega
      rw [e, store_bytes]
  have := rest (N / 2) le_rfl
  rw [show N - N / 2 + N / 2 = N by omega] at this
  rw [fromBytesBE_steps]
  exact this

/-! ### The classes -/

theorem words_at (m : Mem) (a : ℕ) : Scalar.toBytesLE (fpAt m a).words = bytes m a 48 := by
  have b : ∀ c, [(word m c).toUInt8, (word m c >>> 8).toUInt8, (word m c >>> 16).toUInt8, (word m c >>> 24).toUInt8,
      (word m c >>> 32).toUInt8, (word m c >>> 40).toUInt8, (word m c >>> 48).toUInt8, (word m c >>> 56).toUInt8] = bytes m c 8 := by
    intro c
    have h := byte_word m c
    generalize word m c = w at h ⊢
    have h0 := h 0 (by omega)
    have h1 := h 1 (by omega)
    have h2 := h 2 (by omega)
    have h3 := h 3 (by omega)
    have h4 := h 4 (by omega)
    have h5 := h 5 (by omega)
    have h6 := h 6 (by omega)
    have h7 := h 7 (by omega)
    rw [show w >>> UInt64.ofNat (8 * 0) = w by simp] at h0
    change _ = [m (c + 0), m (c + 1), m (c + 2), m (c + 3), m (c + 4), m (c + 5), m (c + 6), m (c + 7)]
    rw [← h0, ← h1, ← h2, ← h3, ← h4, ← h5, ← h6, ← h7]
    rfl
  rw [Scalar.toBytesLE, Fp.words, fpAt]
  simp only [List.flatMap_cons, List.flatMap_nil, List.append_nil, b]
  rw [show 48 = 8 + (8 + (8 + (8 + (8 + 8)))) from rfl, bytes_add, bytes_add, bytes_add, bytes_add, bytes_add]

theorem fp_length (adx mont : Bool) (x : Fp) : (x.toBytesBE adx mont).length = 48 ∧ (x.toBytesLE adx mont).length = 48 := by
  cases mont <;> exact ⟨Scalar.toBytesBE_length _, Scalar.toBytesLE_length _⟩

theorem fpBE_reads (adx mont : Bool) : Reads (fun m a => (fpAt m a).toBytesBE adx mont) 48 :=
  ⟨fun _ _ a h => congrArg _ (fpAt_congr fun i hi => h _ (by omega) (by omega)), fun _ _ => (fp_length adx mont _).1⟩

theorem fpLE_reads (adx mont : Bool) : Reads (fun m a => (fpAt m a).toBytesLE adx mont) 48 :=
  ⟨fun _ _ a h => congrArg _ (fpAt_congr fun i hi => h _ (by omega) (by omega)), fun _ _ => (fp_length adx mont _).2⟩

theorem fp2_length (adx mont : Bool) (x : Fp2 Fp) :
    (x.toBytesBE (Fp.toBytesBE adx mont)).length = 96 ∧ (x.toBytesLE (Fp.toBytesLE adx mont)).length = 96 := by
  rw [Fp2.toBytesBE, Fp2.toBytesLE, List.length_append, List.length_append, (fp_length adx mont _).1, (fp_length adx mont _).1,
    (fp_length adx mont _).2, (fp_length adx mont _).2]
  exact ⟨rfl, rfl⟩

theorem fp2BE_reads (adx mont : Bool) : Reads (fun m a => (fp2At m a).toBytesBE (Fp.toBytesBE adx mont)) 96 :=
  ⟨fun _ _ a h => congrArg _ (fp2At_congr fun i hi => h _ (by omega) (by omega)), fun _ _ => (fp2_length adx mont _).1⟩

theorem fp2LE_reads (adx mont : Bool) : Reads (fun m a => (fp2At m a).toBytesLE (Fp.toBytesLE adx mont)) 96 :=
  ⟨fun _ _ a h => congrArg _ (fp2At_congr fun i hi => h _ (by omega) (by omega)), fun _ _ => (fp2_length adx mont _).2⟩

theorem fp6_length (adx mont : Bool) (x : Fp6 Fp) :
    (x.toBytesBE (Fp.toBytesBE adx mont)).length = 288 ∧ (x.toBytesLE (Fp.toBytesLE adx mont)).length = 288 := by
  rw [Fp6.toBytesBE, Fp6.toBytesLE]
  simp only [List.length_append, (fp2_length adx mont _).1, (fp2_length adx mont _).2]
  exact ⟨trivial, trivial⟩

theorem fp6BE_reads (adx mont : Bool) : Reads (fun m a => (fp6At m a).toBytesBE (Fp.toBytesBE adx mont)) 288 :=
  ⟨fun _ _ a h => congrArg _ (fp6At_congr fun i hi => h _ (by omega) (by omega)), fun _ _ => (fp6_length adx mont _).1⟩

theorem fp6LE_reads (adx mont : Bool) : Reads (fun m a => (fp6At m a).toBytesLE (Fp.toBytesLE adx mont)) 288 :=
  ⟨fun _ _ a h => congrArg _ (fp6At_congr fun i hi => h _ (by omega) (by omega)), fun _ _ => (fp6_length adx mont _).2⟩

theorem fpBE_eq {adx mont : Bool} {this out : ℕ} (m : Mem) (h : mont = true ∨ this + 48 ≤ out + 1 ∨ out + 48 ≤ this + 1) :
    fpBE adx mont this out m = store m out ((fpAt m this).toBytesBE adx mont) := by
  cases mont with
  | true => rfl
  | false =>
    rw [fpBE, if_neg Bool.false_ne_true, toBytesBE_eq m (by rcases h with h | h; · exact absurd h Bool.false_ne_true
                                                            · exact h), Fp.toBytesBE,
      if_neg Bool.false_ne_true, Scalar.toBytesBE_eq, words_at]

theorem fpLE_eq {adx mont : Bool} {this out : ℕ} (m : Mem) (h : mont = true ∨ out ≤ this ∨ this + 48 ≤ out) :
    fpLE adx mont this out m = store m out ((fpAt m this).toBytesLE adx mont) := by
  cases mont with
  | true => rfl
  | false =>
    rw [fpLE, if_neg Bool.false_ne_true, toBytesLE_eq m (by rcases h with h | h; · exact absurd h Bool.false_ne_true
                                                            · exact h), Fp.toBytesLE,
      if_neg Bool.false_ne_true, words_at]

/-- Two components. -/
theorem two {val : Mem → ℕ → List UInt8} {s : ℕ} (hv : Reads val s) {a b out : ℕ} (m : Mem)
    (h : b + s ≤ out ∨ out + s ≤ b) :
    store (store m out (val m a)) (out + s) (val (store m out (val m a)) b) = store m out (val m a ++ val m b) := by
  have e : val (store m out (val m a)) b = val m b := hv.1 _ _ _ fun x h1 h2 => by rw [store, hv.2, if_neg (by omega)]
  rw [e, store_append m out s _ _ (hv.2 m a).symm]

/-- Three components. -/
theorem three {val : Mem → ℕ → List UInt8} {s : ℕ} (hv : Reads val s) {a b c out : ℕ} (m : Mem)
    (h : b + s ≤ out ∨ out + s ≤ b) (h' : c + s ≤ out ∨ out + 2 * s ≤ c) :
    store (store (store m out (val m a)) (out + s) (val (store m out (val m a)) b)) (out + 2 * s)
      (val (store (store m out (val m a)) (out + s) (val (store m out (val m a)) b)) c) =
      store m out (val m a ++ (val m b ++ val m c)) := by
  rw [two hv m h]
  have l : (val m a ++ val m b).length = 2 * s := by rw [List.length_append, hv.2, hv.2]; omega
  have e : val (store m out (val m a ++ val m b)) c = val m c := hv.1 _ _ _ fun x h1 h2 => by rw [store, l, if_neg (by omega)]
  rw [e, store_append m out (2 * s) _ _ l.symm, List.append_assoc]

/-! ### The tower in place, big-endian -/

/-- The memory with `bs` from address 0 on and nothing else. -/
def mem (bs : List UInt8) : Mem := fun x => bs.getD x 0

theorem store_at (m : Mem) (a i : ℕ) (bs : List UInt8) (h : i < bs.length) : store m a bs (a + i) = mem bs (0 + i) := by
  rw [store, if_pos ⟨by omega, by omega⟩, Nat.add_sub_cancel_left, mem, Nat.zero_add]

/-- One byte in a memory of zeros. -/
def dot (k : ℕ) : Mem := fun x => if x = k then 1 else 0

theorem dot_at (a k i : ℕ) : dot (a + k) (a + i) = dot k (0 + i) := by simp [dot]

theorem wrote_unique {m m' : Mem} {a : ℕ} {u v : List UInt8} (h : Wrote m (store m' a u) a v) (hl : u.length = v.length) :
    u = v := by
  have := h.1
  rw [← hl, bytes_store] at this
  exact this

theorem dot2 (a k : ℕ) : fp2At (dot (a + k)) a = fp2At (dot k) 0 := fp2At_congr fun i _ => dot_at a k i

theorem dot6 (a k : ℕ) : fp6At (dot (a + k)) a = fp6At (dot k) 0 := fp6At_congr fun i _ => dot_at a k i

theorem dot6' (a k : ℕ) : fp6At (dot (a + k)) (a + 288) = fp6At (dot k) 288 :=
  fp6At_congr fun i _ => by rw [Nat.add_assoc, dot_at, Nat.zero_add]

theorem fp2_self (adx mont : Bool) (a : ℕ) (m : Mem) :
    fp2BE adx mont a a m = store m a ((fp2At m a).c1.toBytesBE adx mont ++
      (fpAt (mem ((fp2At m a).c1.toBytesBE adx mont)) 0).toBytesBE adx mont) := by
  rw [fp2BE]
  rw [← store_append m a 48 _ _ (fp_length adx mont _).1.symm]
  have e : fpAt (store m a ((fpAt m (a + 48)).toBytesBE adx mont)) a = fpAt (mem ((fp2At m a).c1.toBytesBE adx mont)) 0 :=
    fpAt_congr fun i hi => store_at _ _ _ _ (by rw [(fp_length adx mont _).1]; exact hi)
  rw [e]
  rfl

theorem fp6_self (adx mont : Bool) (a : ℕ) (m : Mem) :
    fp6BE adx mont a a m = store m a ((fp6At m a).c2.toBytesBE (Fp.toBytesBE adx mont) ++
      ((fp6At m a).c1.toBytesBE (Fp.toBytesBE adx mont) ++
        (fp2At (mem ((fp6At m a).c2.toBytesBE (Fp.toBytesBE adx mont))) 0).toBytesBE (Fp.toBytesBE adx mont))) := by
  have t := two (fp2BE_reads adx mont) (a := a + 192) (b := a + 96) (out := a) m (by omega)
  rw [fp6BE]
  have e : fp2At (store m a ((fp2At m (a + 192)).toBytesBE (Fp.toBytesBE adx mont) ++
      (fp2At m (a + 96)).toBytesBE (Fp.toBytesBE adx mont))) a =
      fp2At (mem ((fp6At m a).c2.toBytesBE (Fp.toBytesBE adx mont))) 0 :=
    fp2At_congr fun i hi => by
      rw [store_at _ _ _ _ (by rw [List.length_append, (fp2_length adx mont _).1]; omega), mem, mem, Nat.zero_add,
        List.getD_append _ _ _ _ (by rw [(fp2_length adx mont _).1]; exact hi)]
      rfl
  rw [t, e, ← List.append_assoc]
  refine store_append m a 192 _ _ ?_
  rw [List.length_append, (fp2_length adx mont _).1, (fp2_length adx mont _).1]

theorem fp12_self (adx mont : Bool) (a : ℕ) (m : Mem) :
    fp12BE adx mont a a m = store m a ((fp12At m a).c1.toBytesBE (Fp.toBytesBE adx mont) ++
      (fp6At (mem ((fp12At m a).c1.toBytesBE (Fp.toBytesBE adx mont))) 0).toBytesBE (Fp.toBytesBE adx mont)) := by
  rw [fp12BE]
  rw [← store_append m a 288 _ _ (fp6_length adx mont _).1.symm]
  have e : fp6At (store m a ((fp6At m (a + 288)).toBytesBE (Fp.toBytesBE adx mont))) a =
      fp6At (mem ((fp12At m a).c1.toBytesBE (Fp.toBytesBE adx mont))) 0 :=
    fp6At_congr fun i hi => store_at _ _ _ _ (by rw [(fp6_length adx mont _).1]; exact hi)
  rw [e]
  rfl

theorem fp_differs (adx : Bool) : dot 0 (0 + 47) ≠ ((fpAt (dot 0) 0).toBytesBE adx false).getD 47 0 := by
  revert adx
  decide +kernel

/-- The object with one byte set, from which the code writes something else. -/
theorem fp2_differs (adx mont : Bool) :
    (fpAt (mem ((fp2At (dot 48) 0).c1.toBytesBE adx mont)) 0).toBytesBE adx mont ≠ (fp2At (dot 48) 0).c0.toBytesBE adx mont := by
  revert adx mont
  decide +kernel

theorem fp6_differs (adx mont : Bool) :
    (fp2At (mem ((fp6At (dot 192) 0).c2.toBytesBE (Fp.toBytesBE adx mont))) 0).toBytesBE (Fp.toBytesBE adx mont) ≠
      (fp6At (dot 192) 0).c0.toBytesBE (Fp.toBytesBE adx mont) := by
  revert adx mont
  decide +kernel

theorem fp12_differs (adx mont : Bool) :
    (fp6At (mem ((fp12At (dot 288) 0).c1.toBytesBE (Fp.toBytesBE adx mont))) 0).toBytesBE (Fp.toBytesBE adx mont) ≠
      (fp12At (dot 288) 0).c0.toBytesBE (Fp.toBytesBE adx mont) := by
  revert adx mont
  decide +kernel

end Bls.Overlay
