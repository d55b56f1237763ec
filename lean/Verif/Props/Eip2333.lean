import Verif.Props.Keys
import Verif.Proof.Signatures
import Verif.Spec.Eip2333

/-!
# C86: key generation and EIP-2333

`secret_key` and `derive_child_sk` are declared as the functions of EIP-2333. They are those of its version of 2020
(C38), in which the salt of the first attempt is not hashed. `HkdfModR`, `MasterSk`, `ChildSk`: the final version.
-/

namespace Bls.Props
open Bls Keys

/-- C86, the full statement: the keys are those of EIP-2333. -/
def C86_full : Prop := ∀ (H : List UInt8 → List UInt8), (∀ m, Fips.IsSha256 m (H m)) →
  ∀ (junk : List UInt8) (fuel : ℕ) (seed : List UInt8) (sk : List UInt64), junk.length = 48 → 32 ≤ seed.length →
    secretKey junk fuel seed = some (some sk) → Eip2333.MasterSk H seed (wordsVal sk)

section
variable {H : List UInt8 → List UInt8}

/-- The attempts of the final version are those of the version of 2020 without the first one. -/
theorem attempt_eq (ikm : List UInt8) (n : ℕ) : Eip2333.attempt H ikm n = KeyGen.candidate H ikm (n + 1) := by
  have h : ∀ n, Eip2333.salt H n = KeyGen.salt H (n + 1) := by
    intro n
    induction n with
    | zero => rfl
    | succ n ih => rw [Eip2333.salt, ih]; rfl
  rw [Eip2333.attempt, KeyGen.candidate, h]

theorem hkdfModR_agree {ikm : List UInt8} {k k' : ℕ} (h : KeyGen.IsKey H ikm k) (h' : Eip2333.HkdfModR H ikm k') :
    k = k' ↔ KeyGen.candidate H ikm 0 = 0 ∨ KeyGen.candidate H ikm 0 = k' := by
  obtain ⟨n, h1, h2, h3⟩ := h
  obtain ⟨n', h1', h2', h3'⟩ := h'
  rw [attempt_eq] at h2'
  constructor
  · rintro rfl
    cases n with
    | zero => exact .inr h2
    | succ n => exact .inl (h1 0 (Nat.succ_pos n))
  · rintro (h0 | h0)
    · cases n with
      | zero => exact absurd (h2.symm.trans h0) h3
      | succ n =>
        rcases lt_trichotomy n n' with hl | rfl | hl
        · exact absurd ((attempt_eq ikm n ▸ h1' n hl) ▸ h2).symm h3
        · exact h2.symm.trans h2'
        · exact absurd ((h1 (n' + 1) (by omega)) ▸ h2').symm h3'
    · cases n with
      | zero => exact h2.symm.trans h0
      | succ n => exact absurd (h0.symm.trans (h1 0 (Nat.succ_pos n))) h3'

end

/-- The seed of the first test of EIP-2333. -/
def eipSeed : List UInt8 :=
  [0xc5, 0x52, 0x57, 0xc3, 0x60, 0xc0, 0x7c, 0x72, 0x02, 0x9a, 0xeb, 0xc1, 0xb5, 0x3c, 0x05, 0xed,
   0x03, 0x62, 0xad, 0xa3, 0x8e, 0xad, 0x3e, 0x3e, 0x9e, 0xfa, 0x37, 0x08, 0xe5, 0x34, 0x95, 0x53,
   0x1f, 0x09, 0xa6, 0x98, 0x75, 0x99, 0xd1, 0x82, 0x64, 0xc1, 0xe1, 0xc9, 0x2f, 0x2c, 0xf1, 0x41,
   0x63, 0x0c, 0x7a, 0x3c, 0x4a, 0xb7, 0xc8, 0x1b, 0x2f, 0x00, 0x16, 0x98, 0xe7, 0x46, 0x3b, 0x04]

theorem eipSeed_attempt : Eip2333.attempt (fun m => Sha256.hash [m]) eipSeed 0 =
    6083874454709270928345386274498605044986640685124978867557563392430687146096 := by decide +kernel

theorem eipSeed_secretKey : secretKey (List.replicate 48 7) 1 eipSeed =
    some (some [0x2df5b465a674ecfb, 0x621eb2837c71a136, 0x1cc8f190cdd51c05, 0xbefcabff4a66446]) := by decide +kernel

/-- C86 is false for the seed of the first test of EIP-2333: the EIP gives 6083…6096, `secret_key` returns 5399…. -/
theorem C86_false : ¬ C86_full := fun h => by
  obtain ⟨-, n, h1, h2, -⟩ := h _ Sig.sha_spec _ 1 eipSeed _ List.length_replicate (by decide) eipSeed_secretKey
  cases n with
  | zero =>
    rw [eipSeed_attempt] at h2
    revert h2
    decide +kernel
  | succ n =>
    have := h1 0 (Nat.succ_pos n)
    rw [eipSeed_attempt] at this
    revert this
    decide +kernel

/-- The example of the EIP is one of the specification. -/
theorem eip_case : Eip2333.MasterSk (fun m => Sha256.hash [m]) eipSeed
    6083874454709270928345386274498605044986640685124978867557563392430687146096 :=
  ⟨by decide, 0, fun m h => absurd h (Nat.not_lt_zero m), eipSeed_attempt, by norm_num⟩

section
variable {H : List UInt8 → List UInt8} (hH : ∀ m, Fips.IsSha256 m (H m))
include hH

/-- C86, the part that holds: the master key is the one of the final EIP exactly if the attempt with the unhashed salt is zero
(which the loop then skips) or happens to be the same number. Missing: all other seeds. -/
theorem C86_master_partial (junk : List UInt8) (hj : junk.length = 48) (fuel : ℕ) (seed : List UInt8) (hs : 32 ≤ seed.length)
    (sk : List UInt64) (k : ℕ) (h : secretKey junk fuel seed = some (some sk)) (hk : Eip2333.MasterSk H seed k) :
    wordsVal sk = k ↔ KeyGen.candidate H seed 0 = 0 ∨ KeyGen.candidate H seed 0 = k :=
  hkdfModR_agree ((C38_secretKey hH junk hj seed hs).2.1 fuel sk h).2.1 hk.2

/-- C86: the same for the children: the Lamport key is the one of the EIP, the key made from it differs as for the master
key. -/
theorem C86_child_partial (junk0 junk1 junk : List UInt8) (h0 : junk0.length = 8160) (h1 : junk1.length = 8160)
    (hj : junk.length = 48) (fuel : ℕ) (parent : List UInt64) (hp : parent.length = 4) (index : UInt32) (sk : List UInt64) (k : ℕ)
    (h : deriveChildSk junk0 junk1 junk fuel parent index = some (some sk))
    (hk : Eip2333.ChildSk H (wordsVal parent) index.toNat k) :
    wordsVal sk = k ↔ KeyGen.candidate H (KeyGen.lamportPk H (wordsVal parent) index.toNat) 0 = 0 ∨
      KeyGen.candidate H (KeyGen.lamportPk H (wordsVal parent) index.toNat) 0 = k :=
  hkdfModR_agree ((C38_deriveChildSk hH junk0 junk1 junk h0 h1 hj parent hp index).2.2 fuel sk h).2.1 hk

end

/-- The test of the EIP: the attempt with the unhashed salt is neither zero nor the key of the EIP. -/
example : KeyGen.candidate (fun m => Sha256.hash [m]) eipSeed 0 ≠ 0 ∧ KeyGen.candidate (fun m => Sha256.hash [m]) eipSeed 0 ≠
    6083874454709270928345386274498605044986640685124978867557563392430687146096 := by
  have h := C86_master_partial Sig.sha_spec _ List.length_replicate 1 eipSeed (by decide) _ _ eipSeed_secretKey eip_case
  rw [← not_or, ← h]
  decide +kernel

/-- The child 0 of the key 3. -/
example (fuel : ℕ) (sk : List UInt64) (k : ℕ) (h : deriveChildSk (List.replicate 8160 0) (List.replicate 8160 0)
      (List.replicate 48 0) fuel [3, 0, 0, 0] 0 = some (some sk)) (hk : Eip2333.ChildSk (fun m => Sha256.hash [m]) 3 0 k) :
    wordsVal sk = k ↔ KeyGen.candidate (fun m => Sha256.hash [m]) (KeyGen.lamportPk (fun m => Sha256.hash [m]) 3 0) 0 = 0 ∨
      KeyGen.candidate (fun m => Sha256.hash [m]) (KeyGen.lamportPk (fun m => Sha256.hash [m]) 3 0) 0 = k :=
  C86_child_partial Sig.sha_spec _ _ _ List.length_replicate List.length_replicate List.length_replicate fuel [3, 0, 0, 0] rfl 0
    sk k h hk

end Bls.Props
