import Verif.Proof.PowMod
import Verif.Spec.Params
import Mathlib.NumberTheory.LucasPrimality
import Mathlib.Tactic.NormNum.Prime

/-! The group order is prime (Lucas certificate; `q - 1` has only small prime factors). -/

namespace Bls

theorem q_sub_one : q - 1 = 2 ^ 32 * 3 * 11 * 19 * 10177 * 125527 * 859267 * 906349 ^ 2 * 2508409 *
    2529403 * 52437899 * 254760293 ^ 2 := by decide +kernel

theorem q_pow {e v : Nat} (h : powMod q 7 e = v) : (7 : ZMod q) ^ e = (v : ZMod q) := by
  rw [← h, powMod_eq]; rfl

theorem natCast_ne_one {m v : Nat} (h : v % m ≠ 1 % m) : (v : ZMod m) ≠ 1 := by
  intro h'
  apply h
  have h2 : (v : ZMod m) = ((1 : Nat) : ZMod m) := by rw [h', Nat.cast_one]
  exact (ZMod.natCast_eq_natCast_iff _ _ _).1 h2

theorem q_pow_ne {e : Nat} (h : powMod q 7 e % q ≠ 1 % q) : (7 : ZMod q) ^ e ≠ 1 := by
  rw [q_pow rfl]; exact natCast_ne_one h

theorem q_prime : q.Prime := by
  refine lucas_primality q 7 ?_ ?_
  · rw [q_pow (v := 1) (by decide +kernel), Nat.cast_one]
  · intro t ht hd
    rw [q_sub_one] at hd
    have key : t ∈ [2, 3, 11, 19, 10177, 125527, 859267, 906349, 2508409, 2529403, 52437899, 254760293] := by
      simp only [List.mem_cons, List.not_mem_nil, or_false]
      have d : ∀ {n}, n.Prime → t ∣ n → t = n := fun hn h => (Nat.prime_dvd_prime_iff_eq ht hn).1 h
      simp only [ht.dvd_mul] at hd
      rcases hd with (((((((((((h | h) | h) | h) | h) | h) | h) | h) | h) | h) | h) | h)
      · exact Or.inl (d (by norm_num) (ht.dvd_of_dvd_pow h))
      · have := d (n := 3) (by norm_num) h; tauto
      · have := d (n := 11) (by norm_num) h; tauto
      · have := d (n := 19) (by norm_num) h; tauto
      · have := d (n := 10177) (by norm_num) h; tauto
      · have := d (n := 125527) (by norm_num) h; tauto
      · have := d (n := 859267) (by norm_num) h; tauto
      · have := d (n := 906349) (by norm_num) (ht.dvd_of_dvd_pow h); tauto
      · have := d (n := 2508409) (by norm_num) h; tauto
      · have := d (n := 2529403) (by norm_num) h; tauto
      · have := d (n := 52437899) (by norm_num) h; tauto
      · have := d (n := 254760293) (by norm_num) (ht.dvd_of_dvd_pow h); tauto
    simp only [List.mem_cons, List.not_mem_nil, or_false] at key
    rcases key with rfl | rfl | rfl | rfl | rfl | rfl | rfl | rfl | rfl | rfl | rfl | rfl <;>
      exact q_pow_ne (by decide +kernel)

instance : Fact q.Prime := ⟨q_prime⟩

end Bls
