import Verif.Proof.StaticInit
import Verif.Props.Tags
import Verif.Props.Bilinear

/-!
# C88: calls from the initialisers of the caller
-/

namespace Bls.Props
open Bls Rfc StaticInit

variable {adx : Bool} {H : List UInt8 → List UInt8}

attribute [local irreducible] p q hEff2

/-- C88, the full statement: whichever of its constants are initialised, the functions of the library do what they do afterwards. -/
def C88_full (adx : Bool) : Prop := ∀ r : Ready,
  (∀ sk, StaticInit.publicKey r sk = some (Keys.publicKey sk : G1 (FpV adx))) ∧
  (∀ (pk : G1 (FpV adx)) i, StaticInit.deriveChildG1Unhardened r pk i = Keys.deriveChildG1Unhardened pk i) ∧
  (∀ (pk : G2 (FpV adx)) i, StaticInit.deriveChildG2Unhardened r pk i = Keys.deriveChildG2Unhardened pk i) ∧
  (∀ sk m, (StaticInit.sign r sk m : Option (G2 (FpV adx))) = Sig.sign sk m) ∧
  ∀ (pk : G1 (FpV adx)) m s, StaticInit.verify r pk m s = Sig.verify pk m s

/-- C88: that holds once all units are initialised, in whatever order that happened. -/
theorem C88_done_partial (r : Ready) (h : ∀ u, u ∈ r) :
    (∀ sk, StaticInit.publicKey r sk = some (Keys.publicKey sk : G1 (FpV adx))) ∧
    (∀ (pk : G1 (FpV adx)) i, StaticInit.deriveChildG1Unhardened r pk i = Keys.deriveChildG1Unhardened pk i) ∧
    (∀ (pk : G2 (FpV adx)) i, StaticInit.deriveChildG2Unhardened r pk i = Keys.deriveChildG2Unhardened pk i) ∧
    (∀ sk m, (StaticInit.sign r sk m : Option (G2 (FpV adx))) = Sig.sign sk m) ∧
    ∀ (pk : G1 (FpV adx)) m s, StaticInit.verify r pk m s = Sig.verify pk m s :=
  late (h _) (h _) (h _)

/-- `signatures.cpp`, then `fp.cpp`, then `g.cpp`. -/
example (sk : List UInt64) : StaticInit.publicKey [.signatures, .fp, .g] sk = some (Keys.publicKey sk : G1 (FpV adx)) :=
  (C88_done_partial [.signatures, .fp, .g] (by intro u; cases u <;> decide)).1 sk

/-- C88: before `g.cpp` is initialised, `public_key` returns infinity for every secret key. -/
theorem C88_public_key {r : Ready} (hf : .fp ∈ r) (h : .g ∉ r) (sk : List UInt64) :
    ∃ a : G1 (FpV adx), StaticInit.publicKey r sk = some a ∧ a.isZero = true := by
  obtain ⟨a, e, ha⟩ := publicKey_early (K := FpV adx) hf h sk
  exact ⟨a, e, ha.isZero_iff.2 rfl⟩

example : ∃ a : G1 (FpV adx), StaticInit.publicKey [.fp, .signatures] [3, 0, 0, 0] = some a ∧ a.isZero = true :=
  C88_public_key (by decide) (by decide) _

/-- C88: then the unhardened child of every key, in both groups, is the key itself. -/
theorem C88_child {r : Ready} (hf : .fp ∈ r) (h : .g ∉ r) (pk : G1 (FpV adx)) (hp : pk.isOnCurve FpC.B = true)
    (pk2 : G2 (FpV adx)) (hp2 : pk2.isOnCurve Fp2.B = true) (i : UInt32) :
    (∃ a, StaticInit.deriveChildG1Unhardened r pk i = some a ∧ a.equal pk = true) ∧
    ∃ a, StaticInit.deriveChildG2Unhardened r pk2 i = some a ∧ a.equal pk2 = true := by
  obtain ⟨P, hP⟩ := G1.onCurve_iff.1 hp
  obtain ⟨P2, hP2⟩ := G2.onCurve_iff.1 hp2
  obtain ⟨a, e, ha⟩ := child1_early hf h hP i
  obtain ⟨a2, e2, ha2⟩ := child2_early hf h hP2 i
  exact ⟨⟨a, e, (Jac.equal_iff ha hP).2 rfl⟩, a2, e2, (Jac.equal_iff ha2 hP2).2 rfl⟩

example (i : UInt32) : ∃ a, StaticInit.deriveChildG1Unhardened [.fp, .signatures] (G1.one : G1 (FpV adx)) i = some a ∧
    a.equal (G1.one : G1 (FpV adx)) = true :=
  (C88_child (by decide) (by decide) G1.one valid_one.1.1 G2.one valid_one.2.1 i).1

/-- C88: then `verify` does not look at the signature beyond its membership: it accepts every signature under infinity, for every
message, and, unless the message hashes to infinity, nothing under any other key. -/
theorem C88_verify (hH : ∀ m, Fips.IsSha256 m (H m)) {r : Ready} (hf : .fp ∈ r) (hs : .signatures ∈ r) (h : .g ∉ r)
    (pk : G1 (FpV adx)) (s : G2 (FpV adx)) {m : List UInt8} (hm : m.length < 2 ^ 31) :
    ∃ Q : E2 (FpV adx), IsHash H m sigTag Q ∧ ∃ b, StaticInit.verify r pk m s = some b ∧
      (b = true ↔ Member1 pk ∧ Member2 s ∧ (pk.isZero = true ∨ Q = 0)) := by
  obtain ⟨Q, hQ, b, e, hb⟩ := verify_early hH hf hs h pk s hm
  rw [tags_eq.1] at hQ
  refine ⟨Q, hQ, b, e, hb.trans ?_⟩
  rw [Member1, Member2]
  refine and_congr_right fun h1 => and_congr_right fun _ => or_congr_left ?_
  obtain ⟨P, hP, -⟩ := Pairing.valid1 h1
  rw [hP.isZero_iff]
  exact ⟨fun k => hP.unique k, fun k => k ▸ hP⟩

/-- Under the generator of the other group, a member that is not infinity, the generator is a signature only of a message that
hashes to infinity. -/
example : ∃ Q : E2 (FpV adx), IsHash (fun m => Sha256.hash [m]) [97, 98, 99] sigTag Q ∧
    (Q ≠ 0 → StaticInit.verify [.fp, .signatures] (G1.one : G1 (FpV adx)) [97, 98, 99] (G2.one : G2 (FpV adx)) = some false) := by
  obtain ⟨Q, hQ, b, e, hb⟩ := C88_verify Sig.sha_spec (r := [.fp, .signatures]) (by decide) (by decide) (by decide)
    (G1.one : G1 (FpV adx)) (G2.one : G2 (FpV adx)) (m := [97, 98, 99]) (by decide)
  refine ⟨Q, hQ, fun h0 => ?_⟩
  rw [e, Option.some_inj, Bool.eq_false_iff, Ne, hb]
  rintro ⟨-, -, h | h⟩
  · rw [G1.one_rep.isZero_iff] at h
    exact gen1_ne_zero _ h
  · exact h0 h

/-- C88: so the key of the secret key 1, computed then, is infinity, and under it `verify` accepts, then, the generator as the signature
of any message. -/
theorem C88_forged (hH : ∀ m, Fips.IsSha256 m (H m)) {r : Ready} (hf : .fp ∈ r) (hs : .signatures ∈ r) (h : .g ∉ r)
    {m : List UInt8} (hm : m.length < 2 ^ 31) :
    ∃ pk : G1 (FpV adx), StaticInit.publicKey r [1, 0, 0, 0] = some pk ∧ StaticInit.verify r pk m (G2.one : G2 (FpV adx)) = some true := by
  obtain ⟨a, e, ha⟩ := publicKey_early (K := FpV adx) hf h [1, 0, 0, 0]
  obtain ⟨Q, -, b, e', hb⟩ := C88_verify hH hf hs h a (G2.one : G2 (FpV adx)) hm
  have h1 : Member1 a := ⟨G1.onCurve_iff.2 ⟨_, ha⟩, (G1.inCorrectSubgroup_iff ha).2 (nsmul_zero _)⟩
  rw [hb.2 ⟨h1, valid_one.2, Or.inl (ha.isZero_iff.2 rfl)⟩] at e'
  exact ⟨a, e, e'⟩

example : ∃ pk : G1 (FpV adx), StaticInit.publicKey [.fp, .signatures] [1, 0, 0, 0] = some pk ∧
    StaticInit.verify [.fp, .signatures] pk [97, 98, 99] (G2.one : G2 (FpV adx)) = some true :=
  C88_forged Sig.sha_spec (by decide) (by decide) (by decide) (by decide)

/-- C88: the full statement is false. -/
theorem C88_false : ¬ C88_full adx := by
  intro h
  have h1 := (h [.fp, .signatures]).1 [1, 0, 0, 0]
  obtain ⟨a, e, ha⟩ := publicKey_early (K := FpV adx) (r := [.fp, .signatures]) (by decide) (by decide) [1, 0, 0, 0]
  rw [e] at h1
  obtain rfl := Option.some.inj h1
  have hw : wordsVal [1, 0, 0, 0] = 1 := by decide
  have hk := Keys.publicKey_rep (K := FpV adx) [1, 0, 0, 0]
  rw [hw, one_smul] at hk
  exact gen1_ne_zero _ (hk.unique ha)

/-- The states of the theorems arise: `fp.cpp` and `signatures.cpp` initialised before `g.cpp`; all of them, in two orders. -/
example : Source.fp ∈ [Source.fp, .signatures] ∧ Source.signatures ∈ [Source.fp, .signatures] ∧ Source.g ∉ [Source.fp, .signatures] ∧
    (∀ u, u ∈ [Source.fp, .g, .signatures]) ∧ ∀ u, u ∈ [Source.signatures, .fp, .g] := by
  refine ⟨by decide, by decide, by decide, ?_, ?_⟩ <;> intro u <;> cases u <;> decide

example : (G1.one : G1 (FpV adx)).isOnCurve FpC.B = true ∧ (G2.one : G2 (FpV adx)).isOnCurve Fp2.B = true :=
  ⟨valid_one.1.1, valid_one.2.1⟩

end Bls.Props
