import Verif.Model.OverlayPoint
import Verif.Proof.Overlay

/-! Affine and compressed serialisation into memory that overlaps the point. -/

namespace Bls.Overlay
open Rfc (bytes Wrote)

variable {adx : Bool}

theorem fpVAt_eq {m : Mem} {a : ℕ} {x : FpV adx} (h : fpAt m a = x.1) : fpVAt adx m a = some x := by
  have hx : (fpAt m a).val < p := h ▸ x.2
  rw [fpVAt, dif_pos hx]
  exact congrArg some (FpV.ext h)

theorem fp2VAt_eq {m : Mem} {a : ℕ} {x : Fp2 (FpV adx)} (h : fp2At m a = ⟨x.c0.1, x.c1.1⟩) : fp2VAt adx m a = some x := by
  rw [fp2At, Fp2.mk.injEq] at h
  rw [fp2VAt, fpVAt_eq h.1, fpVAt_eq h.2]
  rfl

theorem g1VAt_eq {m : Mem} {a : ℕ} {t : G1 (FpV adx)} (h : g1At m a = ⟨t.x.1, t.y.1, t.z.1⟩) : g1VAt adx m a = some t := by
  rw [g1At, Jac.mk.injEq] at h
  rw [g1VAt, fpVAt_eq h.1, fpVAt_eq h.2.1, fpVAt_eq h.2.2]
  rfl

theorem g2VAt_eq {m : Mem} {a : ℕ} {t : G2 (FpV adx)}
    (h : g2At m a = ⟨⟨t.x.c0.1, t.x.c1.1⟩, ⟨t.y.c0.1, t.y.c1.1⟩, ⟨t.z.c0.1, t.z.c1.1⟩⟩) : g2VAt adx m a = some t := by
  rw [g2At, Jac.mk.injEq] at h
  rw [g2VAt, fp2VAt_eq h.1, fp2VAt_eq h.2.1, fp2VAt_eq h.2.2]
  rfl

theorem affineBytes_eq {F : Type} [Ops F] {n : ℕ} {enc : F → List UInt8} (hn : ∀ x, (enc x).length = n)
    {obj : Mem → Option (Jac F)} {m : Mem} {t : Jac F} (h : obj m = some t) (out : ℕ) :
    affineBytes n enc obj out m = some (store m out (Jac.toAffineBytes n enc t)) := by
  unfold affineBytes Jac.toAffineBytes
  rw [h]
  by_cases hz : t.isZero = true
  · simp [hz]
  · simp only [hz, Option.bind_eq_bind, Option.bind_some, Bool.false_eq_true, if_false, Option.pure_def]
    rw [store_append m out n _ _ (hn _).symm]

theorem orFirst_store (m : Mem) (out : ℕ) (bs : List UInt8) (b : UInt8) (h : 0 < bs.length) :
    orFirst (store m out bs) out b = store m out (bs.modify 0 (· ||| b)) := by
  obtain ⟨c, cs, rfl⟩ : ∃ c cs, bs = c :: cs := by
    cases bs with
    | nil => simp at h
    | cons c cs => exact ⟨c, cs, rfl⟩
  rw [List.modify_zero_cons]
  funext x
  by_cases h1 : x = out
  · subst h1; simp [orFirst, store]
  · have e : orFirst (store m out (c :: cs)) out b x = store m out (c :: cs) x := by
      rw [orFirst]
      generalize store m out (c :: cs) = m'
      rw [store, if_neg (by rw [List.length_singleton]; omega)]
    rw [e, store, store]
    by_cases h2 : out ≤ x ∧ x < out + (c :: cs).length
    · have h3 : out ≤ x ∧ x < out + ((c ||| b) :: cs).length := h2
      rw [if_pos h2, if_pos h3, show x - out = (x - out - 1) + 1 by omega, List.getD_cons_succ, List.getD_cons_succ]
    · have h3 : ¬ (out ≤ x ∧ x < out + ((c ||| b) :: cs).length) := h2
      rw [if_neg h2, if_neg h3]

theorem compressed_tail (m : Mem) (out : ℕ) (bs : List UInt8) (c : Bool) (h : 0 < bs.length) :
    orFirst (if c then orFirst (store m out bs) out 0x20 else store m out bs) out 0x80 =
      store m out ((if c then bs.modify 0 (· ||| 0x20) else bs).modify 0 (· ||| 0x80)) := by
  cases c
  · exact orFirst_store m out bs _ h
  · simp only [if_true]
    rw [orFirst_store m out bs _ h, orFirst_store m out _ _ (by rw [List.length_modify]; exact h)]

theorem fpC_length {K : Type} [FpOps K] (x : K) : (FpC.toBytesBE x).length = 48 := by
  rw [FpC.toBytesBE, Scalar.toBytesBE_length]; rfl

theorem g1Compressed_eq {K : Type} [FpOps K] {obj : Mem → Option (G1 K)} {m : Mem} {t : G1 K} (h : obj m = some t) (out : ℕ) :
    g1Compressed obj out m = some (store m out (G1.toCompressedBytesBE t)) := by
  unfold g1Compressed G1.toCompressedBytesBE
  rw [h]
  simp only [Option.bind_eq_bind, Option.bind_some, Option.pure_def]
  split
  · rw [orFirst_store _ _ _ _ (by rw [List.length_replicate]; decide)]
  · rw [compressed_tail _ _ _ _ (by rw [fpC_length]; decide)]

theorem g2Compressed_eq {K : Type} [FpOps K] {obj : Mem → Option (G2 K)} {m : Mem} {t : G2 K} (h : obj m = some t) (out : ℕ) :
    g2Compressed obj out m = some (store m out (G2.toCompressedBytesBE t)) := by
  unfold g2Compressed G2.toCompressedBytesBE
  rw [h]
  simp only [Option.bind_eq_bind, Option.bind_some, Option.pure_def]
  split
  · rw [orFirst_store _ _ _ _ (by rw [List.length_replicate]; decide)]
  · rw [store_append m out 48 _ _ (fpC_length _).symm, compressed_tail _ _ _ _ (by rw [List.length_append, fpC_length]; omega)]

end Bls.Overlay
