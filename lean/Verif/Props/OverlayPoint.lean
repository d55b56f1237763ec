import Verif.Proof.OverlayPoint
import Verif.Proof.Keys

/-!
# C103: affine and compressed serialisation into memory that overlaps the point

The point `t` lies at `this`, the span at `out`, anywhere.
-/

namespace Bls.Overlay
open Rfc (bytes Wrote)

/-- `g1::toAffineBytesBE/LE` and `g2::toAffineBytesBE/LE` with both options are right for every overlap of the point and `out`. -/
theorem C103_affine (adx mont : Bool) (this out : ℕ) (f : ℕ → UInt8) :
    (∀ t : G1 (FpV adx), g1At f this = ⟨t.x.1, t.y.1, t.z.1⟩ →
      (∃ f', affineBytes 48 (FpV.toBytesBE adx mont) (g1VAt adx · this) out f = some f' ∧
        Wrote f f' out (Jac.toAffineBytes 48 (FpV.toBytesBE adx mont) t)) ∧
      ∃ f', affineBytes 48 (FpV.toBytesLE adx mont) (g1VAt adx · this) out f = some f' ∧
        Wrote f f' out (Jac.toAffineBytes 48 (FpV.toBytesLE adx mont) t)) ∧
    (∀ t : G2 (FpV adx), g2At f this = ⟨⟨t.x.c0.1, t.x.c1.1⟩, ⟨t.y.c0.1, t.y.c1.1⟩, ⟨t.z.c0.1, t.z.c1.1⟩⟩ →
      (∃ f', affineBytes 96 (Fp2.toBytesBE (FpV.toBytesBE adx mont)) (g2VAt adx · this) out f = some f' ∧
        Wrote f f' out (Jac.toAffineBytes 96 (Fp2.toBytesBE (FpV.toBytesBE adx mont)) t)) ∧
      ∃ f', affineBytes 96 (Fp2.toBytesLE (FpV.toBytesLE adx mont)) (g2VAt adx · this) out f = some f' ∧
        Wrote f f' out (Jac.toAffineBytes 96 (Fp2.toBytesLE (FpV.toBytesLE adx mont)) t)) := by
  have lb : ∀ x : FpV adx, (FpV.toBytesBE adx mont x).length = 48 := fun x => (fp_length adx mont x.1).1
  have ll : ∀ x : FpV adx, (FpV.toBytesLE adx mont x).length = 48 := fun x => (fp_length adx mont x.1).2
  have lb2 : ∀ x : Fp2 (FpV adx), (Fp2.toBytesBE (FpV.toBytesBE adx mont) x).length = 96 := fun x => by
    rw [Fp2.toBytesBE, List.length_append, lb, lb]
  have ll2 : ∀ x : Fp2 (FpV adx), (Fp2.toBytesLE (FpV.toBytesLE adx mont) x).length = 96 := fun x => by
    rw [Fp2.toBytesLE, List.length_append, ll, ll]
  constructor
  · intro t h
    have h := g1VAt_eq h
    exact ⟨⟨_, affineBytes_eq (obj := (g1VAt adx · this)) lb h out, wrote_store _ _ _⟩,
      _, affineBytes_eq (obj := (g1VAt adx · this)) ll h out, wrote_store _ _ _⟩
  · intro t h
    have h := g2VAt_eq h
    exact ⟨⟨_, affineBytes_eq (obj := (g2VAt adx · this)) lb2 h out, wrote_store _ _ _⟩,
      _, affineBytes_eq (obj := (g2VAt adx · this)) ll2 h out, wrote_store _ _ _⟩

/-- `g1::toCompressedBytesBE` and `g2::toCompressedBytesBE` are right for every overlap of the point and `out`. -/
theorem C103_compressed (adx : Bool) (this out : ℕ) (f : ℕ → UInt8) :
    (∀ t : G1 (FpV adx), g1At f this = ⟨t.x.1, t.y.1, t.z.1⟩ →
      ∃ f', g1Compressed (g1VAt adx · this) out f = some f' ∧ Wrote f f' out (G1.toCompressedBytesBE t)) ∧
    (∀ t : G2 (FpV adx), g2At f this = ⟨⟨t.x.c0.1, t.x.c1.1⟩, ⟨t.y.c0.1, t.y.c1.1⟩, ⟨t.z.c0.1, t.z.c1.1⟩⟩ →
      ∃ f', g2Compressed (g2VAt adx · this) out f = some f' ∧ Wrote f f' out (G2.toCompressedBytesBE t)) := by
  constructor
  · intro t h
    have h := g1VAt_eq h
    exact ⟨_, g1Compressed_eq (obj := (g1VAt adx · this)) h out, wrote_store _ _ _⟩
  · intro t h
    have h := g2VAt_eq h
    exact ⟨_, g2Compressed_eq (obj := (g2VAt adx · this)) h out, wrote_store _ _ _⟩

/-! ## Cases -/

/-- The memory that holds the words of a point of `g1` from address 0 on. -/
def holds1 {adx : Bool} (t : G1 (FpV adx)) : Mem :=
  mem (Scalar.toBytesLE t.x.1.words ++ (Scalar.toBytesLE t.y.1.words ++ Scalar.toBytesLE t.z.1.words))

theorem holds1_base (adx : Bool) : let t : G1 (FpV adx) := G1.one
    g1At (holds1 t) 0 = ⟨t.x.1, t.y.1, t.z.1⟩ := by
  revert adx; decide +kernel

theorem holds1_z (adx : Bool) : holds1 (G1.one : G1 (FpV adx)) 96 = 0xfd := by revert adx; decide +kernel

/-- The base point, compressed onto its own second coordinate: the first byte is that of the published encoding, and the byte after
the 48 is the first of `z`, as before. -/
example (adx : Bool) : ∃ f', g1Compressed (g1VAt adx · 0) 48 (holds1 (G1.one : G1 (FpV adx))) = some f' ∧
    bytes f' 48 48 = G1.toCompressedBytesBE (G1.one : G1 (FpV adx)) ∧ f' 96 = 0xfd := by
  obtain ⟨f', h1, h2, h3⟩ := (C103_compressed adx 0 48 (holds1 (G1.one : G1 (FpV adx)))).1 _ (holds1_base adx)
  have l : (G1.toCompressedBytesBE (G1.one : G1 (FpV adx))).length = 48 := by
    unfold G1.toCompressedBytesBE
    simp only
    split
    · rfl
    · rw [List.length_modify]; split
      · rw [List.length_modify, fpC_length]
      · rw [fpC_length]
  rw [l] at h2 h3
  refine ⟨f', h1, h2, (h3 96 (by decide)).trans (holds1_z adx)⟩

/-- And in affine form onto itself. -/
example (adx mont : Bool) : ∃ f', affineBytes 48 (FpV.toBytesBE adx mont) (g1VAt adx · 0) 0 (holds1 (G1.one : G1 (FpV adx))) = some f' ∧
    Wrote (holds1 (G1.one : G1 (FpV adx))) f' 0 (Jac.toAffineBytes 48 (FpV.toBytesBE adx mont) (G1.one : G1 (FpV adx))) :=
  ((C103_affine adx mont 0 0 _).1 _ (holds1_base adx)).1

end Bls.Overlay
