import Verif.Proof.ScaleRun
import Verif.Props.Signatures

/-!
# C65: the sequence of point operations and the secret key
-/

namespace Bls.Props
open Bls Bls.Sig

variable {adx : Bool}

/-- C65: the functions with their calls recorded return what the functions return. -/
theorem C65_same : (∀ (a : G1 (FpV adx)) (s : List UInt64), (a.scaleRun s).1 = a.scale s) ∧
    (∀ (a : G2 (FpV adx)) (s : List UInt64), (a.scaleRun s).1 = a.scale s) ∧
    (∀ sk : List UInt64, (Keys.publicKeyRun sk : G1 (FpV adx) × _).1 = Keys.publicKey sk) ∧
    (∀ (sk : List UInt64) (m : List UInt8), (signRun sk m : Option (G2 (FpV adx) × _)).map Prod.fst = sign sk m) := by
  refine ⟨fun a s => by rw [Jac.scaleRun_eq], fun a s => by rw [Jac.scaleRun_eq], fun sk => ?_, fun sk m => ?_⟩
  · rw [Keys.publicKeyRun, Jac.scaleRun_eq]; rfl
  · rw [signRun, sign, Option.map_map]
    refine congrArg (fun f => Option.map f _) (funext fun a => ?_)
    change (a.scaleRun sk).1 = _
    rw [Jac.scaleRun_eq]

/-- C65: the calls are the binary digits of the key, whatever the point and the message are. -/
theorem C65_calls (sk : List UInt64) : (Keys.publicKeyRun sk : G1 (FpV adx) × _).2 = callsOf (wordsVal sk) ∧
    (∀ (m : List UInt8) (r : G2 (FpV adx) × List PointCall), signRun sk m = some r → r.2 = callsOf (wordsVal sk)) ∧
    (∀ a : G1 (FpV adx), (a.scaleRun sk).2 = callsOf (wordsVal sk)) ∧
    (∀ a : G2 (FpV adx), (a.scaleRun sk).2 = callsOf (wordsVal sk)) := by
  refine ⟨by rw [Keys.publicKeyRun, Jac.scaleRun_eq], fun m r h => ?_, fun a => by rw [Jac.scaleRun_eq],
    fun a => by rw [Jac.scaleRun_eq]⟩
  rw [signRun] at h
  obtain ⟨a, -, rfl⟩ := Option.map_eq_some_iff.1 h
  rw [Jac.scaleRun_eq]

/-- C65: how many calls there are: one doubling per binary digit and one addition per digit 1. -/
theorem C65_count (n : ℕ) : (callsOf n).count .dbl = n.size ∧ (callsOf n).count .add = n.bits.count true := by
  rw [← Nat.size_eq_bits_len, callsOf]
  induction n.bits with
  | nil => exact ⟨rfl, rfl⟩
  | cons b l ih =>
    rw [List.flatMap_cons, List.count_append, List.count_append, ih.1, ih.2]
    cases b <;> simp [List.count_cons, add_comm]

/-- C65: the sequence of calls determines the key: it can be read off by an observer of additions and doublings. -/
theorem C65_leak (sk sk' : List UInt64) :
    (Keys.publicKeyRun sk : G1 (FpV adx) × _).2 = (Keys.publicKeyRun sk' : G1 (FpV adx) × _).2 ↔ wordsVal sk = wordsVal sk' := by
  rw [(C65_calls (adx := adx) sk).1, (C65_calls (adx := adx) sk').1]
  exact ⟨callsOf_inj, fun h => by rw [h]⟩

/-- The negation of C65: two keys in range with different sequences of calls, in `public_key` and in `sign`. -/
theorem C65_false : ∃ sk sk' : List UInt64, wordsVal sk < q ∧ wordsVal sk' < q ∧ 0 < wordsVal sk ∧ 0 < wordsVal sk' ∧
    (Keys.publicKeyRun sk : G1 (FpV adx) × _).2 ≠ (Keys.publicKeyRun sk' : G1 (FpV adx) × _).2 ∧
    ∀ m : List UInt8, m.length < 2 ^ 31 → ∃ r r' : G2 (FpV adx) × List PointCall,
      signRun sk m = some r ∧ signRun sk' m = some r' ∧ r.2 ≠ r'.2 := by
  have hne : callsOf (wordsVal [1, 0, 0, 0]) ≠ callsOf (wordsVal [2, 0, 0, 0]) := fun h => by
    have := callsOf_inj h
    revert this
    decide +kernel
  refine ⟨[1, 0, 0, 0], [2, 0, 0, 0], by decide +kernel, by decide +kernel, by decide +kernel, by decide +kernel, ?_, fun m hm => ?_⟩
  · rw [(C65_calls (adx := adx) _).1, (C65_calls (adx := adx) _).1]; exact hne
  · have h : ∀ sk, (signRun sk m : Option (G2 (FpV adx) × List PointCall)) = some ((Sig.hm m).scaleRun sk) := fun sk => by
      rw [signRun, hm_eq hm, Option.map_some]
    refine ⟨_, _, h _, h _, ?_⟩
    rw [Jac.scaleRun_eq, Jac.scaleRun_eq]
    exact hne

/-- The calls for the key 6, binary 110. -/
example : callsOf 6 = [.dbl, .add, .dbl, .add, .dbl] := by
  rw [callsOf, show (6 : ℕ) = 2 * 3 from rfl, Nat.bit0_bits _ (by decide), show (3 : ℕ) = 2 * 1 + 1 from rfl, Nat.bit1_bits, Nat.one_bits]
  rfl

end Bls.Props
