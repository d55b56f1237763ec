import Verif.Proof.Signatures2
import Verif.Proof.Hex
import Verif.Proof.Carry

/-! Exactly when the modelled calls have undefined behaviour. -/

namespace Bls

theorem hexLoopN_none : ∀ (n : ℕ) (s : List UInt8), hexLoopN n s = none ↔ s.length < 2 * n
  | 0, _ => by simp [hexLoopN]
  | n + 1, [] => by simp [hexLoopN]
  | n + 1, [_] => by simp [hexLoopN]; omega
  | n + 1, a :: b :: s => by
    have ih := hexLoopN_none n s
    rw [hexLoopN, List.length_cons, List.length_cons]
    cases h : hexLoopN n s with
    | none => rw [h] at ih; simp at ih ⊢; omega
    | some r => rw [h] at ih; simp at ih ⊢; omega

theorem hexToBytesN_none (n : ℕ) (s : List UInt8) :
    hexToBytesN n s = none ↔ (if [48, 120] <+: s then s.length - 2 else s.length) + 1 < 2 * n := by
  match s with
  | [] => simp [hexToBytesN, hexLoopN_none]
  | [c] =>
    have : ¬ [48, 120] <+: [c] := by simp [List.cons_prefix_cons]
    rw [if_neg this]
    show hexLoopN n (if c = 48 ∧ (0 : UInt8) = 120 then [] else [c, 0]) = none ↔ _
    rw [if_neg (by simp), hexLoopN_none]
    rfl
  | c :: d :: t =>
    show hexLoopN n (if c = 48 ∧ d = 120 then t ++ [0] else c :: d :: (t ++ [0])) = none ↔ _
    have e : ([48, 120] <+: c :: d :: t) ↔ c = 48 ∧ d = 120 := by
      rw [List.cons_prefix_cons, List.cons_prefix_cons]
      simp [eq_comm]
    by_cases h : c = 48 ∧ d = 120
    · rw [if_pos h, if_pos (e.2 h), hexLoopN_none, List.length_append, List.length_cons, List.length_cons]
      simp
    · rw [if_neg h, if_neg (fun h' => h (e.1 h')), hexLoopN_none, List.length_cons, List.length_cons, List.length_append, List.length_cons,
        List.length_cons]
      simp

namespace Fp

theorem invLoop_le : ∀ (fuel : ℕ) (u v s r : Fp) (k : ℕ) (r' : Fp) (k' : ℕ), invLoop fuel u v s r k = some (r', k') → k ≤ k' ∧ (v.isZero = false → k < k')
  | 0, _, _, _, _, _, _, _, h => by simp [invLoop] at h
  | fuel + 1, u, v, s, r, k, r', k', h => by
    rw [invLoop] at h
    by_cases hv : v.isZero = true
    · rw [if_pos hv, Option.some.injEq, Prod.mk.injEq] at h
      exact ⟨h.2.le, fun h' => by rw [hv] at h'; cases h'⟩
    · rw [if_neg hv] at h
      suffices k + 1 ≤ k' from ⟨by omega, fun _ => this⟩
      split at h
      · exact (invLoop_le _ _ _ _ _ _ _ _ h).1
      · split at h
        · exact (invLoop_le _ _ _ _ _ _ _ _ h).1
        · split at h
          · exact (invLoop_le _ _ _ _ _ _ _ _ h).1
          · exact (invLoop_le _ _ _ _ _ _ _ _ h).1

/-- The word index `power/64` of `fp::inverse` is below 6. -/
theorem inverse_power_lt (x : Fp) (hx : x.isZero = false) (r : Fp) (k : ℕ)
    (h : invLoop 768 MODULUS x ⟨1, 0, 0, 0, 0, 0⟩ ⟨0, 0, 0, 0, 0, 0⟩ 0 = some (r, k)) :
    (2 * 384 - if k ≤ 384 then k + 384 else k) / 64 < 6 := by
  have := (invLoop_le _ _ _ _ _ _ _ _ h).2 hx
  split <;> omega

end Fp

namespace Sig

variable {K : Type} [Field K] [FpOps K] [LawfulFp K] [DecidableEq K]

omit [Field K] [LawfulFp K] [DecidableEq K] in
theorem fromMessage_tag_ub (m dst : List UInt8) (h : 255 < dst.length % 2 ^ 32) : (fromMessage m dst : Option (G2 K)) = none := by
  have hlt := Nat.mod_lt dst.length (show 2 ^ 32 > 0 by decide)
  have : Hash.xmd (List.replicate 256 0) 256 m (Hash.toInt m.length) dst (Hash.toInt dst.length) = none ∨
      ∃ b, Hash.xmd (List.replicate 256 0) 256 m (Hash.toInt m.length) dst (Hash.toInt dst.length) = some (-1, b) := by
    unfold Hash.xmd
    dsimp only
    by_cases h1 : dst.length % 2 ^ 32 < 2 ^ 31
    · rw [if_pos]
      · exact Or.inr ⟨_, rfl⟩
      · right; right
        rw [Hash.toInt, if_pos h1]
        omega
    · have hp : Hash.piece dst (Hash.toInt dst.length) = none := by
        rw [Hash.toInt, if_neg h1, Hash.piece, if_neg]
        omega
      rw [hp]
      split
      · exact Or.inr ⟨_, rfl⟩
      · left
        cases Hash.piece m (Hash.toInt m.length) <;> rfl
  unfold fromMessage
  rcases this with e | ⟨b, e⟩
  · rw [e]
  · rw [e]
    rfl

omit [Field K] [LawfulFp K] [DecidableEq K] in
theorem fromMessage_take_tag (m dst : List UInt8) (h : dst.length % 2 ^ 32 < 2 ^ 31) :
    (fromMessage m dst : Option (G2 K)) = fromMessage m (dst.take (dst.length % 2 ^ 32)) := by
  have e : (dst.take (dst.length % 2 ^ 32)).length = dst.length % 2 ^ 32 := by
    rw [List.length_take]
    exact min_eq_left (Nat.mod_le _ _)
  have e' : Hash.toInt (dst.take (dst.length % 2 ^ 32)).length = Hash.toInt dst.length := by rw [e, toInt_mod]
  have hp := piece_take dst h
  rw [e'] at hp
  unfold fromMessage Hash.xmd
  rw [e', hp]

theorem fromMessage_none (m dst : List UInt8) : (fromMessage m dst : Option (G2 K)) = none ↔
    2 ^ 31 ≤ m.length % 2 ^ 32 ∨ 255 < dst.length % 2 ^ 32 := by
  constructor
  · intro h
    by_contra hc
    push Not at hc
    rw [fromMessage_take m dst hc.1, fromMessage_take_tag _ _ (by omega)] at h
    obtain ⟨a, e, -⟩ := fromMessage_rep (K := K) sha_spec (m.take (m.length % 2 ^ 32)) (dst.take (dst.length % 2 ^ 32))
      (by rw [List.length_take]; omega) (by rw [List.length_take]; omega)
    rw [e] at h
    cases h
  · rintro (h | h)
    · exact fromMessage_ub m dst h
    · exact fromMessage_tag_ub m dst h

theorem hash_none (m : List UInt8) : (fromMessage m ciphersuiteId : Option (G2 K)) = none ↔ 2 ^ 31 ≤ m.length % 2 ^ 32 := by
  have h : ciphersuiteId.length % 2 ^ 32 ≤ 255 := by decide +kernel
  rw [fromMessage_none]
  omega

theorem isOneProduct_ne_none (v : List (G1 K × G2 K)) : isOneProduct v ≠ none := by
  obtain ⟨b, e, -⟩ := isOneProduct_eq v
  rw [e]
  exact Option.some_ne_none b

theorem verify_none (pk : G1 K) (m : List UInt8) (s : G2 K) : verify pk m s = none ↔ 2 ^ 31 ≤ m.length % 2 ^ 32 := by
  rw [← hash_none (K := K)]
  unfold verify
  dsimp only
  cases h : (fromMessage m ciphersuiteId : Option (G2 K)) with
  | none => simp
  | some a =>
    rw [Option.bind_some]
    refine iff_of_false ?_ (Option.some_ne_none a)
    split
    · exact Option.some_ne_none _
    · split
      · exact Option.some_ne_none _
      · exact isOneProduct_ne_none _

theorem aggregateLoop_none : ∀ (pks : List (G1 K)) (ms : List (List UInt8)) (v : List (G1 K × G2 K)), pks.length = ms.length →
    (aggregateLoop pks ms v = none ↔ ∃ i : ℕ, (∃ m : List UInt8, ms[i]? = some m ∧ 2 ^ 31 ≤ m.length % 2 ^ 32) ∧
      ∀ j ≤ i, ∀ pk : G1 K, pks[j]? = some pk → pk.isOnCurve FpC.B = true ∧ pk.inCorrectSubgroup = true)
  | [], [], v, _ => by simp [aggregateLoop]
  | [], _ :: _, _, h => by simp at h
  | _ :: _, [], _, h => by simp at h
  | pk :: pks, m :: ms, v, h => by
    rw [aggregateLoop]
    by_cases hk : pk.isOnCurve FpC.B = true ∧ pk.inCorrectSubgroup = true
    · rw [if_neg (by rw [hk.1, hk.2]; decide)]
      by_cases hm : 2 ^ 31 ≤ m.length % 2 ^ 32
      · rw [(hash_none m).2 hm, Option.bind_none]
        refine iff_of_true rfl ⟨0, ⟨m, rfl, hm⟩, fun j hj k hk' => ?_⟩
        obtain rfl : j = 0 := by omega
        rw [List.getElem?_cons_zero, Option.some.injEq] at hk'
        rw [← hk']
        exact hk
      · obtain ⟨a, ha⟩ := Option.ne_none_iff_exists'.1 (fun e => hm ((hash_none (K := K) m).1 e))
        rw [ha, Option.bind_some, aggregateLoop_none pks ms _ (by simpa using h)]
        constructor
        · rintro ⟨i, hi, hj⟩
          refine ⟨i + 1, hi, fun j hj' k hk' => ?_⟩
          cases j with
          | zero =>
            rw [List.getElem?_cons_zero, Option.some.injEq] at hk'
            rw [← hk']
            exact hk
          | succ j => exact hj j (by omega) k hk'
        · rintro ⟨i, ⟨m', hi, hl⟩, hj⟩
          cases i with
          | zero =>
            rw [List.getElem?_cons_zero, Option.some.injEq] at hi
            rw [hi] at hm
            exact absurd hl hm
          | succ i => exact ⟨i, ⟨m', hi, hl⟩, fun j hj' k hk' => hj (j + 1) (by omega) k hk'⟩
    · rw [if_pos]
      · refine iff_of_false (Option.some_ne_none _) ?_
        rintro ⟨i, -, hj⟩
        exact hk (hj 0 (by omega) pk rfl)
      · rcases not_and_or.1 hk with h1 | h1
        · rw [Bool.eq_false_iff.2 h1]; rfl
        · rw [Bool.eq_false_iff.2 h1, Bool.or_comm]; rfl

theorem aggregateVerify_none (pks : List (G1 K)) (ms : List (List UInt8)) (s : G2 K) (dup : Bool) :
    aggregateVerify pks ms s dup = none ↔ (s.isOnCurve Fp2.B = true ∧ s.inCorrectSubgroup = true) ∧ pks.length = ms.length ∧
      (dup = true → ms.Nodup) ∧ ∃ i : ℕ, (∃ m : List UInt8, ms[i]? = some m ∧ 2 ^ 31 ≤ m.length % 2 ^ 32) ∧
      ∀ j ≤ i, ∀ pk : G1 K, pks[j]? = some pk → pk.isOnCurve FpC.B = true ∧ pk.inCorrectSubgroup = true := by
  by_cases h1 : s.isOnCurve Fp2.B = true ∧ s.inCorrectSubgroup = true
  swap
  · rw [aggregateVerify_sig h1]
    exact iff_of_false (Option.some_ne_none _) fun h => h1 h.1
  by_cases h2 : pks.length = ms.length
  swap
  · rw [aggregateVerify_length pks ms s dup h2]
    exact iff_of_false (Option.some_ne_none _) fun h => h2 h.2.1
  by_cases h3 : dup = true → ms.Nodup
  swap
  · push Not at h3
    obtain ⟨rfl, h3⟩ := h3
    rw [aggregateVerify_dup h3]
    exact iff_of_false (Option.some_ne_none _) fun h => h3 (h.2.2.1 rfl)
  rw [← aggregateLoop_none pks ms (Pairing.addPair [] (G1.one : G1 K).negate s) h2]
  have hd : (dup && (messageSet ms).length != pks.length) = false := by
    cases dup with
    | false => rfl
    | true =>
      rw [Bool.true_and, h2, (messageSet_length ms).2 (h3 rfl)]
      simp
  unfold aggregateVerify
  dsimp only
  rw [if_neg (by rw [h1.1, h1.2]; decide), if_neg (not_not.2 h2), if_neg (by rw [hd]; decide)]
  cases h : aggregateLoop pks ms (Pairing.addPair [] (G1.one : G1 K).negate s) with
  | none => simpa [h1, h2] using h3
  | some r =>
    rw [Option.bind_some]
    refine iff_of_false ?_ (by simp)
    cases r with
    | none => exact Option.some_ne_none _
    | some v => exact isOneProduct_ne_none v

end Sig

end Bls
