import Verif.Props.Signatures
import Verif.Proof.PopStandard

/-!
# C53: what is hashed and signed
-/

namespace Bls.Props
open Bls Sig Rfc

variable {adx : Bool}

theorem tags_eq : ciphersuiteId = sigTag ∧ popCiphersuiteId = popTag := by decide +kernel

theorem keyBytes_spec {a : G1 (FpV adx)} {P : E1 (FpV adx)} (h : a.Rep P) : IsAffineLE P (keyBytes a) := by
  refine ⟨keyBytes_length a, ?_⟩
  have hv : ∀ x : FpV adx, leVal (Scalar.toBytesLE (FpOps.fromMont x).words) = (FpOps.fromMont x).val := fun x => by
    rw [Scalar.toBytesLE_val, Fp.words_val]
  have hl : ∀ x : Fp, (Scalar.toBytesLE x.words).length = 48 := fun _ => rfl
  match P, h with
  | .zero, h =>
    show keyBytes a = _
    unfold keyBytes Jac.toAffineBytes
    rw [if_pos (h.isZero_iff.2 rfl)]
  | .some x y hxy, h =>
    show CanonicalLE 2 (keyBytes a) ∧ (leVal (chunk (keyBytes a) 0) : FpV adx) = x ∧ (leVal (chunk (keyBytes a) 1) : FpV adx) = y
    unfold keyBytes Jac.toAffineBytes
    rw [if_neg (by rw [Jac.isZero_false.2 h.1]; decide), Jac.affine_some h]
    dsimp only
    have c0 : ∀ u v : List UInt8, u.length = 48 → chunk (u ++ v) 0 = u := fun u v hu => by
      rw [chunk, Nat.mul_zero, List.drop_zero, ← hu, List.take_left]
    have c1 : ∀ u v : List UInt8, u.length = 48 → v.length = 48 → chunk (u ++ v) 1 = v := fun u v hu hv => by
      rw [chunk, Nat.mul_one, ← hu, List.drop_left, hu, ← hv, List.take_length]
    refine ⟨fun i hi => ?_, ?_, ?_⟩
    · obtain rfl | rfl : i = 0 ∨ i = 1 := by omega
      · rw [c0 _ _ (hl _), hv]; exact LawfulFp.fromMont_lt x
      · rw [c1 _ _ (hl _) (hl _), hv]; exact LawfulFp.fromMont_lt y
    · rw [c0 _ _ (hl _), hv]; exact LawfulFp.fromMont_cast x
    · rw [c1 _ _ (hl _) (hl _), hv]; exact LawfulFp.fromMont_cast y

section
variable {H : List UInt8 → List UInt8} (hH : ∀ m, Fips.IsSha256 m (H m))
include hH

/-- C53: `sign(sk, m)` is `sk` times the hash of `m` under the tag of the basic scheme. -/
theorem C53_sign (sk : List UInt64) (m : List UInt8) (hm : m.length < 2 ^ 31) :
    ∃ (P : E2 (FpV adx)) (s : G2 (FpV adx)), IsHash H m sigTag P ∧ sign sk m = some s ∧ s.Rep (wordsVal sk • P) := by
  obtain ⟨P, hP, s, e, r⟩ := sign_rep (K := FpV adx) hH sk hm
  rw [tags_eq.1] at hP
  exact ⟨P, s, hP, e, r⟩

/-- C53: `pop_prove(sk)` is `sk` times the hash, under the tag of proofs of possession, of the public key as 96 little-endian
bytes. -/
theorem C53_pop_prove (sk : List UInt64) : ∃ (bs : List UInt8) (P : E2 (FpV adx)) (s : G2 (FpV adx)),
    IsAffineLE (wordsVal sk • gen1 (FpV adx)) bs ∧ IsHash H bs popTag P ∧ popProve sk = some s ∧ s.Rep (wordsVal sk • P) := by
  obtain ⟨P, hP, s, e, r⟩ := popProve_rep (K := FpV adx) hH sk
  rw [tags_eq.2] at hP
  exact ⟨_, P, s, keyBytes_spec (Keys.publicKey_rep sk), hP, e, r⟩

/-- C53: `verify` accepts exactly the points of C53_sign. -/
theorem C53_verify (pk : G1 (FpV adx)) (m : List UInt8) (s : G2 (FpV adx)) (hm : m.length < 2 ^ 31) :
    ∃ P, IsHash H m sigTag P ∧ ∃ b, verify pk m s = some b ∧
      (b = true ↔ ∃ n < q, pk.Rep (n • gen1 (FpV adx)) ∧ s.Rep (n • P)) := by
  rw [← tags_eq.1]
  exact verify_iff hH pk s hm

/-- C53: `pop_verify` accepts exactly the points of C53_pop_prove. -/
theorem C53_pop_verify (pk : G1 (FpV adx)) (s : G2 (FpV adx)) (Q : E1 (FpV adx)) (hQ : pk.Rep Q) :
    ∃ bs P, IsAffineLE Q bs ∧ IsHash H bs popTag P ∧ ∃ b, popVerify pk s = some b ∧
      (b = true ↔ ∃ n < q, Q = n • gen1 (FpV adx) ∧ s.Rep (n • P)) := by
  obtain ⟨P, hP, b, e, hb⟩ := popVerify_iff (K := FpV adx) hH pk s
  rw [tags_eq.2] at hP
  refine ⟨_, P, keyBytes_spec hQ, hP, b, e, hb.trans ?_⟩
  constructor
  · rintro ⟨n, hn, h1, h2⟩; exact ⟨n, hn, hQ.unique h1, h2⟩
  · rintro ⟨n, hn, rfl, h2⟩; exact ⟨n, hn, hQ, h2⟩

end

/-- The key 3. -/
example : (∃ (P : E2 (FpV adx)) (s : G2 (FpV adx)), IsHash (fun m => Sha256.hash [m]) [97, 98, 99] sigTag P ∧
      sign [3, 0, 0, 0] [97, 98, 99] = some s ∧ s.Rep (3 • P)) ∧
    (∃ (bs : List UInt8) (P : E2 (FpV adx)) (s : G2 (FpV adx)), IsAffineLE (3 • gen1 (FpV adx)) bs ∧
      IsHash (fun m => Sha256.hash [m]) bs popTag P ∧ popProve [3, 0, 0, 0] = some s ∧ s.Rep (3 • P)) ∧
    (∀ s : G2 (FpV adx), ∃ b, verify (Keys.publicKey [3, 0, 0, 0]) [97, 98, 99] s = some b) ∧
    ∀ s : G2 (FpV adx), ∃ b, popVerify (Keys.publicKey [3, 0, 0, 0]) s = some b := by
  refine ⟨C53_sign sha_spec [3, 0, 0, 0] _ (by decide), C53_pop_prove sha_spec [3, 0, 0, 0], fun s => ?_, fun s => ?_⟩
  · obtain ⟨-, -, b, e, -⟩ := C53_verify sha_spec (Keys.publicKey [3, 0, 0, 0]) [97, 98, 99] s (by decide)
    exact ⟨b, e⟩
  · obtain ⟨-, -, -, -, b, e, -⟩ := C53_pop_verify sha_spec (Keys.publicKey [3, 0, 0, 0]) s _ (Keys.publicKey_rep [3, 0, 0, 0])
    exact ⟨b, e⟩

/-- C53: the byte string is determined by the key, and the key by the byte string. -/
theorem C53_key_bytes (P Q : E1 (FpV adx)) (bs : List UInt8) (h : IsAffineLE P bs) :
    (∀ bs', IsAffineLE P bs' → bs' = bs) ∧ (IsAffineLE Q bs → Q = P) := by
  have hc : ∀ cs : List UInt8, cs.length = 96 → cs = chunk cs 0 ++ chunk cs 1 ∧ (chunk cs 0).length = 48 ∧ (chunk cs 1).length = 48 := by
    intro cs hl
    have e0 : chunk cs 0 = cs.take 48 := rfl
    have e1 : chunk cs 1 = cs.drop 48 := List.take_of_length_le (by rw [List.length_drop]; omega)
    rw [e0, e1, List.take_append_drop, List.length_take, List.length_drop]
    exact ⟨rfl, by omega, by omega⟩
  have inj : ∀ u v : List UInt8, u.length = 48 → v.length = 48 → leVal u < p → leVal v < p →
      (leVal u : FpV adx) = (leVal v : FpV adx) → u = v := fun u v hu hv h1 h2 e => by
    rw [IsFp.natCast_eq_iff, Nat.mod_eq_of_lt h1, Nat.mod_eq_of_lt h2] at e
    exact leVal_inj (hu.trans hv.symm) e
  have hz : leVal (chunk (List.replicate 96 0) 0) = 0 ∧ leVal (chunk (List.replicate 96 0) 1) = 0 := by decide +kernel
  have h0 : ∀ (x y : FpV adx) (hn), IsAffineLE (.some x y hn) (List.replicate 96 0) → False := by
    rintro x y hn ⟨-, -, ex, ey⟩
    rw [hz.1, Nat.cast_zero] at ex
    rw [hz.2, Nat.cast_zero] at ey
    have := point_equation hn
    rw [← ex, ← ey] at this
    exact (IsFp.two_ne_zero (K := FpV adx)) (mul_self_eq_zero.1 (by linear_combination -this))
  obtain ⟨hl, h⟩ := h
  constructor
  · rintro bs' ⟨hl', h'⟩
    match P, h, h' with
    | .zero, h, h' => exact Eq.trans h' (Eq.symm h)
    | .some x y hn, h, h' =>
      obtain ⟨c, ex, ey⟩ := h
      obtain ⟨c', ex', ey'⟩ := h'
      obtain ⟨e, l0, l1⟩ := hc bs hl
      obtain ⟨e', l0', l1'⟩ := hc bs' hl'
      rw [e, e', inj _ _ l0' l0 (c' 0 (by decide)) (c 0 (by decide)) (ex'.trans ex.symm),
        inj _ _ l1' l1 (c' 1 (by decide)) (c 1 (by decide)) (ey'.trans ey.symm)]
  · rintro ⟨-, h'⟩
    match P, Q, h, h' with
    | .zero, .zero, _, _ => rfl
    | .some x y hn, .some x' y' hn', h, h' =>
      obtain ⟨-, ex, ey⟩ := h
      obtain ⟨-, ex', ey'⟩ := h'
      obtain rfl := ex.symm.trans ex'
      obtain rfl := ey.symm.trans ey'
      rfl
    | .zero, .some x y hn, h, h' =>
      have h : bs = _ := h
      subst h
      exact (h0 x y hn ⟨hl, h'⟩).elim
    | .some x y hn, .zero, h, h' =>
      have h' : bs = _ := h'
      subst h'
      exact (h0 x y hn ⟨hl, h⟩).elim

/-- The generator has other bytes than infinity. -/
example : ∃ bs, IsAffineLE (gen1 (FpV adx)) bs ∧ ¬ IsAffineLE (0 : E1 (FpV adx)) bs := by
  refine ⟨_, keyBytes_spec G1.one_rep, fun h => ?_⟩
  exact gen1_ne_zero _ ((C53_key_bytes _ (0 : E1 (FpV adx)) _ (keyBytes_spec G1.one_rep)).2 h).symm

/-- C53: these are not the bytes of the standard, which hashes the compressed key. -/
theorem C53_not_compressed (P : E1 (FpV adx)) (bs : List UInt8) (h : IsAffineLE P bs) : ¬ IsCompressed1 P bs := fun h' =>
  absurd (h.1.symm.trans h'.1) (by decide)

example : ∃ bs, IsAffineLE (gen1 (FpV adx)) bs ∧ ¬ IsCompressed1 (gen1 (FpV adx)) bs :=
  ⟨_, keyBytes_spec G1.one_rep, C53_not_compressed _ _ (keyBytes_spec G1.one_rep)⟩

/-- C53: so the proofs of the two differ: for the secret key 1 the proof that the standard prescribes, the hash of the compressed
key, is rejected by `pop_verify` and is not the proof that `pop_prove` returns. -/
theorem C53_not_standard {H : List UInt8 → List UInt8} (hH : ∀ m, Fips.IsSha256 m (H m)) :
    ∃ (bs : List UInt8) (P : E2 (FpV adx)) (s : G2 (FpV adx)), IsCompressed1 (gen1 (FpV adx)) bs ∧ IsHash H bs popTag P ∧
      s.Rep P ∧ popVerify (Keys.publicKey [1, 0, 0, 0]) s = some false ∧
      ∀ s', popProve [1, 0, 0, 0] = some s' → s'.equal s = false := by
  rw [← tags_eq.2]
  exact pop_standard hH

example : ∃ s : G2 (FpV adx), popVerify (Keys.publicKey [1, 0, 0, 0] : G1 (FpV adx)) s = some false := by
  obtain ⟨-, -, s, -, -, -, h, -⟩ := C53_not_standard (adx := adx) sha_spec
  exact ⟨s, h⟩

/-- C53: signatures and proofs of possession hash under different tags. -/
theorem C53_separation : sigTag ≠ popTag ∧ sigTag.length = 43 ∧ popTag.length = 43 ∧
    sigTag = "BLS_SIG_BLS12381G2_XMD:SHA-256_SSWU_RO_NUL_".toUTF8.toList ∧
    popTag = "BLS_POP_BLS12381G2_XMD:SHA-256_SSWU_RO_POP_".toUTF8.toList := by decide +kernel

example : ∃ H : List UInt8 → List UInt8, ∀ m, Fips.IsSha256 m (H m) := ⟨_, sha_spec⟩

example : (G1.one : G1 (FpV adx)).Rep (gen1 (FpV adx)) := G1.one_rep

example : ∃ bs, IsAffineLE (gen1 (FpV adx)) bs := ⟨_, keyBytes_spec G1.one_rep⟩

end Bls.Props
