import Verif.Props.Signatures

/-!
# C44: `fromMessage` for messages and tags of all lengths
-/

namespace Bls.Sig

variable {K : Type} [Field K] [FpOps K] [LawfulFp K] [DecidableEq K]

theorem fromMessage_takeTag (m d : List UInt8) (h : d.length % 2 ^ 32 < 2 ^ 31) :
    (fromMessage m d : Option (G2 K)) = fromMessage m (d.take (d.length % 2 ^ 32)) := by
  have e : (d.take (d.length % 2 ^ 32)).length = d.length % 2 ^ 32 := by
    rw [List.length_take, Nat.min_eq_left (Nat.mod_le _ _)]
  unfold fromMessage Hash.xmd
  rw [piece_take d h, e, toInt_mod]

theorem fromMessage_negTag (m d : List UInt8) (h : 2 ^ 31 ≤ d.length % 2 ^ 32) : (fromMessage m d : Option (G2 K)) = none := by
  have hp : Hash.piece d (Hash.toInt d.length) = none := by
    rw [Hash.toInt, if_neg (by omega), Hash.piece, if_neg]
    have := Nat.mod_lt d.length (show 2 ^ 32 > 0 by decide)
    omega
  have : Hash.xmd (List.replicate 256 0) 256 m (Hash.toInt m.length) d (Hash.toInt d.length) = none ∨
      ∃ b, Hash.xmd (List.replicate 256 0) 256 m (Hash.toInt m.length) d (Hash.toInt d.length) = some (-1, b) := by
    unfold Hash.xmd
    dsimp only
    rw [hp]
    split
    · exact Or.inr ⟨_, rfl⟩
    · cases Hash.piece m (Hash.toInt m.length) <;> exact Or.inl rfl
  unfold fromMessage
  rcases this with e | ⟨b, e⟩
  · rw [e]
  · rw [e]
    rfl

end Bls.Sig

namespace Bls.Props
open Bls Sig Rfc

variable {adx : Bool}

/-- C44 for all lengths: `fromMessage` is defined exactly when the length of the message modulo `2^32` is below `2^31` and
the length of the tag modulo `2^32` is at most 255. It then hashes the prefixes of these lengths. -/
theorem C44_exact {H : List UInt8 → List UInt8} (hH : ∀ m, Fips.IsSha256 m (H m)) (msg dst : List UInt8) :
    ((fromMessage msg dst : Option (G2 (FpV adx))).isSome ↔ msg.length % 2 ^ 32 < 2 ^ 31 ∧ dst.length % 2 ^ 32 ≤ 255) ∧
    ∀ a : G2 (FpV adx), fromMessage msg dst = some a →
      ∃ P, IsHash H (msg.take (msg.length % 2 ^ 32)) (dst.take (dst.length % 2 ^ 32)) P ∧ a.Rep P := by
  by_cases h1 : msg.length % 2 ^ 32 < 2 ^ 31
  · by_cases h2 : dst.length % 2 ^ 32 < 2 ^ 31
    · have e1 : (msg.take (msg.length % 2 ^ 32)).length = msg.length % 2 ^ 32 := by
        rw [List.length_take, Nat.min_eq_left (Nat.mod_le _ _)]
      have e2 : (dst.take (dst.length % 2 ^ 32)).length = dst.length % 2 ^ 32 := by
        rw [List.length_take, Nat.min_eq_left (Nat.mod_le _ _)]
      rw [fromMessage_take msg dst h1, fromMessage_takeTag _ dst h2]
      by_cases h3 : dst.length % 2 ^ 32 ≤ 255
      · obtain ⟨a, e, P, hP, r⟩ := fromMessage_rep (K := FpV adx) hH _ _ (e1.trans_lt h1) (e2.trans_le h3)
        rw [e]
        refine ⟨⟨fun _ => ⟨h1, h3⟩, fun _ => rfl⟩, fun a' h => ?_⟩
        obtain rfl := Option.some.inj h
        exact ⟨P, hP, r⟩
      · rw [C44_long_tag _ _ (by rw [e2]; omega) (e2.trans_lt h2)]
        exact ⟨⟨fun h => absurd h (by simp), fun h => absurd h.2 h3⟩, fun a h => absurd h (by simp)⟩
    · rw [fromMessage_negTag _ _ (not_lt.1 h2)]
      exact ⟨⟨fun h => absurd h (by simp), fun h => absurd h.2 (by omega)⟩, fun a h => absurd h (by simp)⟩
  · rw [fromMessage_ub _ _ (not_lt.1 h1)]
    exact ⟨⟨fun h => absurd h (by simp), fun h => absurd h.1 h1⟩, fun a h => absurd h (by simp)⟩

/-- A message and a tag of usual length; a tag of `2^32 + 1` bytes is taken for a tag of one byte. -/
example : (3 % 2 ^ 32 < 2 ^ 31 ∧ ciphersuiteId.length % 2 ^ 32 ≤ 255) ∧
    (List.replicate (2 ^ 32 + 1) (0 : UInt8)).length % 2 ^ 32 = 1 := by
  rw [List.length_replicate]; decide +kernel

end Bls.Props
