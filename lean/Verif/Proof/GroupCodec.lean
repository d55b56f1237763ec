import Verif.Model.GroupCodec
import Verif.Spec.GroupCodec
import Verif.Proof.Groups
import Verif.Proof.Codec
import Verif.Proof.FpV

/-! Uncompressed point codecs. -/

namespace Bls

open WeierstrassCurve.Affine

namespace FpV

variable {adx : Bool}

theorem codec_lift {dec : List UInt8 → Option Fp} {enc : Fp → List UInt8} {ok : List UInt8 → Prop}
    (h : IsCodec 48 dec enc (fun x => x.val < p) ok) :
    IsCodec 48 (fun bs => (dec bs).bind fun e => if h : e.val < p then some (⟨e, h⟩ : FpV adx) else none)
      (fun x => enc x.1) (fun _ => True) ok where
  enc_length x _ := h.enc_length x.1 x.2
  dec_enc x _ := by rw [h.dec_enc x.1 x.2, Option.bind_some, dif_pos x.2]
  accept bs hl := by
    rw [← h.accept bs hl]
    cases hd : dec bs with
    | none => simp
    | some e =>
      have := (h.enc_dec bs e hl hd).1
      simp [this]
  enc_dec bs x hl hd := by
    cases hd' : dec bs with
    | none => rw [hd'] at hd; cases hd
    | some e =>
      have h1 := h.enc_dec bs e hl hd'
      rw [hd', Option.bind_some, dif_pos h1.1] at hd
      have := Option.some.inj hd
      subst this
      exact ⟨trivial, h1.2⟩

theorem codecBE (mont : Bool) : IsCodec 48 (fromBytesBE adx mont) (toBytesBE adx mont) (fun _ => True)
    (fun bs => beVal bs < p) := codec_lift (Fp.codecBE adx mont)

theorem codecLE (mont : Bool) : IsCodec 48 (fromBytesLE adx mont) (toBytesLE adx mont) (fun _ => True)
    (fun bs => leVal bs < p) := codec_lift (Fp.codecLE adx mont)

/-- The second test in `FpV.fromBytesBE` never rejects. -/
theorem fromBytesBE_val (mont : Bool) (bs : List UInt8) (h : bs.length = 48) :
    (fromBytesBE adx mont bs).map (·.1) = Fp.fromBytesBE adx true mont bs := by
  rw [fromBytesBE]
  cases hd : Fp.fromBytesBE adx true mont bs with
  | none => rfl
  | some e => rw [Option.bind_some, dif_pos ((Fp.codecBE adx mont).enc_dec bs e h hd).1]; rfl

theorem fromBytesLE_val (mont : Bool) (bs : List UInt8) (h : bs.length = 48) :
    (fromBytesLE adx mont bs).map (·.1) = Fp.fromBytesLE adx true mont bs := by
  rw [fromBytesLE]
  cases hd : Fp.fromBytesLE adx true mont bs with
  | none => rfl
  | some e => rw [Option.bind_some, dif_pos ((Fp.codecLE adx mont).enc_dec bs e h hd).1]; rfl

end FpV

namespace FpV

variable {adx : Bool}

theorem eq_coord_of {x : FpV adx} {n : ℕ} (h : x.1.val = n) : x = coord false n := by
  have h2 := (rep_toZ x).2
  rw [h] at h2
  apply toZ_inj
  have e2 : ((2 : FpV adx) ^ 384).toZ = 2 ^ 384 := by rw [← ringEquiv_apply, map_pow, map_ofNat]
  rw [coord, if_neg (by decide), toZ_mul, toZ_inv, e2, toZ_natCast, h2, mul_assoc,
    mul_inv_cancel₀, mul_one]
  exact pow_ne_zero _ (by
    intro h
    have : ((2 : ℕ) : ZMod p) = 0 := by rw [Nat.cast_ofNat]; exact h
    rw [ZMod.natCast_eq_zero_iff] at this
    exact absurd (Nat.le_of_dvd (by norm_num) this) (by decide +kernel))

theorem dec_valBE (mont : Bool) {bs : List UInt8} (hl : bs.length = 48) {x : FpV adx}
    (h : fromBytesBE adx mont bs = some x) : x = coord mont (beVal bs) := by
  have h1 := fromBytesBE_val (adx := adx) mont bs hl
  rw [h, Option.map_some, Fp.fromBytesBE] at h1
  have hb : (Fp.ofWords (Scalar.fromBytesBE 6 bs)).val = beVal bs := by
    rw [Fp.ofWords_val (Scalar.fromBytesBE_length 6 bs), Scalar.fromBytesBE_val 6 bs (by omega)]
  split at h1
  · cases h1
  · cases mont
    · rw [if_neg (by decide)] at h1
      have := Option.some.inj h1
      exact eq_coord_of (by rw [this, hb])
    · rw [if_pos rfl] at h1
      have := Option.some.inj h1
      apply toZ_inj
      rw [coord, if_pos rfl, toZ_natCast, ← hb]
      exact toZ_eq (this ▸ Fp.toMont_rep adx _)

theorem dec_valLE (mont : Bool) {bs : List UInt8} (hl : bs.length = 48) {x : FpV adx}
    (h : fromBytesLE adx mont bs = some x) : x = coord mont (leVal bs) := by
  have h1 := fromBytesLE_val (adx := adx) mont bs hl
  rw [h, Option.map_some, Fp.fromBytesLE] at h1
  have hb : (Fp.ofWords (Scalar.fromBytesLE 6 bs)).val = leVal bs := by
    rw [Fp.ofWords_val (Scalar.fromBytesLE_length 6 bs), Scalar.fromBytesLE_val 6 bs (by omega)]
  split at h1
  · cases h1
  · cases mont
    · rw [if_neg (by decide)] at h1
      have := Option.some.inj h1
      exact eq_coord_of (by rw [this, hb])
    · rw [if_pos rfl] at h1
      have := Option.some.inj h1
      apply toZ_inj
      rw [coord, if_pos rfl, toZ_natCast, ← hb]
      exact toZ_eq (this ▸ Fp.toMont_rep adx _)

end FpV

/-! ### Pasting three and two coordinates -/

section

variable {F : Type} {n : ℕ} {dec : List UInt8 → Option F} {enc : F → List UInt8} {ok : List UInt8 → Prop}
  {val : List UInt8 → F}

/-- A coordinate codec together with the meaning of the accepted strings. -/
structure CoordCodec (n : ℕ) (dec : List UInt8 → Option F) (enc : F → List UInt8) (ok : List UInt8 → Prop)
    (val : List UInt8 → F) : Prop where
  codec : IsCodec n dec enc (fun _ => True) ok
  meaning : ∀ bs x, bs.length = n → dec bs = some x → x = val bs

namespace CoordCodec

theorem dec_ok (h : CoordCodec n dec enc ok val) {bs : List UInt8} (hl : bs.length = n) (ho : ok bs) :
    dec bs = some (val bs) := by
  have := (h.codec.accept bs hl).2 ho
  obtain ⟨x, hx⟩ := Option.isSome_iff_exists.1 this
  rw [hx, h.meaning bs x hl hx]

theorem dec_not (h : CoordCodec n dec enc ok val) {bs : List UInt8} (hl : bs.length = n) (ho : ¬ ok bs) :
    dec bs = none := by
  by_contra hne
  exact ho ((h.codec.accept bs hl).1 (Option.isSome_iff_ne_none.2 hne))

theorem ok_of (h : CoordCodec n dec enc ok val) {bs : List UInt8} (hl : bs.length = n) {x : F}
    (hx : dec bs = some x) : ok bs := (h.codec.accept bs hl).1 (by rw [hx]; rfl)

variable [Field F] [Ops F] [LawfulOps F]

theorem jacobian (h : CoordCodec n dec enc ok val) (b : F) :
    IsCodec (3 * n) (Jac.fromJacobianBytes n dec b true) (Jac.toJacobianBytes enc)
      (fun a => a.isOnCurve b = true)
      (fun bs => (ok (span bs 0 n) ∧ ok (span bs n n) ∧ ok (span bs (2 * n) n)) ∧
        (⟨val (span bs 0 n), val (span bs n n), val (span bs (2 * n) n)⟩ : Jac F).isOnCurve b = true) := by
  have hcat : ∀ bs : List UInt8, bs.length = 3 * n →
      span bs 0 n ++ (span bs n n ++ span bs (2 * n) n) = bs := by
    intro bs hl
    have e1 : span bs n n = span (span bs n (2 * n)) 0 n := by rw [span_span (by omega)]; rfl
    have e2 : span bs (2 * n) n = span (span bs n (2 * n)) n n := by
      rw [span_span (by omega)]; congr 1; omega
    rw [e1, e2, span_append (by rw [span_length (by omega)]; omega), span_append (by omega)]
  constructor
  · intro a _
    rw [Jac.toJacobianBytes, List.length_append, List.length_append, h.codec.enc_length _ trivial,
      h.codec.enc_length _ trivial, h.codec.enc_length _ trivial]
    omega
  · intro a ha
    have l1 := h.codec.enc_length a.x trivial
    have l2 := h.codec.enc_length a.y trivial
    have l3 := h.codec.enc_length a.z trivial
    rw [Jac.toJacobianBytes, Jac.fromJacobianBytes, span_left l1]
    have e1 : span (enc a.x ++ (enc a.y ++ enc a.z)) n n = enc a.y := by
      have : span (enc a.x ++ (enc a.y ++ enc a.z)) n (2 * n) = enc a.y ++ enc a.z :=
        span_right l1 (by rw [List.length_append]; omega)
      have e := span_left (a := enc a.y) (b := enc a.z) l2
      rwa [← this, span_span (by omega)] at e
    have e2 : span (enc a.x ++ (enc a.y ++ enc a.z)) (2 * n) n = enc a.z := by
      have : span (enc a.x ++ (enc a.y ++ enc a.z)) n (2 * n) = enc a.y ++ enc a.z :=
        span_right l1 (by rw [List.length_append]; omega)
      have e := span_right (a := enc a.y) (b := enc a.z) l2 l3
      rw [← this, span_span (by omega)] at e
      rwa [show 2 * n = n + n by omega]
    rw [e1, e2, h.codec.dec_enc _ trivial, h.codec.dec_enc _ trivial, h.codec.dec_enc _ trivial]
    simp only
    rw [ha]
    rfl
  · intro bs hl
    have l1 : (span bs 0 n).length = n := span_length (by omega)
    have l2 : (span bs n n).length = n := span_length (by omega)
    have l3 : (span bs (2 * n) n).length = n := span_length (by omega)
    rw [Jac.fromJacobianBytes]
    by_cases o1 : ok (span bs 0 n)
    · by_cases o2 : ok (span bs n n)
      · by_cases o3 : ok (span bs (2 * n) n)
        · rw [h.dec_ok l1 o1, h.dec_ok l2 o2, h.dec_ok l3 o3]
          simp only [o1, o2, o3, true_and, and_self]
          generalize (⟨val (span bs 0 n), val (span bs n n), val (span bs (2 * n) n)⟩ : Jac F).isOnCurve b = c
          cases c <;> simp
        · rw [h.dec_not l3 o3]
          simp [o3]
      · rw [h.dec_not l2 o2]
        simp [o2]
    · rw [h.dec_not l1 o1]
      simp [o1]
  · intro bs a hl hd
    have l1 : (span bs 0 n).length = n := span_length (by omega)
    have l2 : (span bs n n).length = n := span_length (by omega)
    have l3 : (span bs (2 * n) n).length = n := span_length (by omega)
    rw [Jac.fromJacobianBytes] at hd
    cases h1 : dec (span bs 0 n) with
    | none => rw [h1] at hd; cases hd
    | some x =>
      cases h2 : dec (span bs n n) with
      | none => rw [h1, h2] at hd; cases hd
      | some y =>
        cases h3 : dec (span bs (2 * n) n) with
        | none => rw [h1, h2, h3] at hd; cases hd
        | some z =>
          rw [h1, h2, h3] at hd
          simp only [Bool.true_and] at hd
          split at hd
          · cases hd
          · rename_i hc
            have := Option.some.inj hd
            subst this
            refine ⟨by simpa using hc, ?_⟩
            rw [Jac.toJacobianBytes]
            change enc x ++ (enc y ++ enc z) = bs
            rw [(h.codec.enc_dec _ _ l1 h1).2, (h.codec.enc_dec _ _ l2 h2).2, (h.codec.enc_dec _ _ l3 h3).2,
              hcat bs hl]

theorem affine_accept (h : CoordCodec n dec enc ok val) (b : F) (check : Bool) (bs : List UInt8)
    (hl : bs.length = 2 * n) :
    (Jac.fromAffineBytes n dec b check bs).isSome ↔ (ok (span bs 0 n) ∧ ok (span bs n n)) ∧
      (check = true → (val (span bs 0 n) = 0 ∧ val (span bs n n) = 0) ∨
        (⟨val (span bs 0 n), val (span bs n n), 1⟩ : Jac F).isOnCurve b = true) := by
  have l1 : (span bs 0 n).length = n := span_length (by omega)
  have l2 : (span bs n n).length = n := span_length (by omega)
  rw [Jac.fromAffineBytes]
  by_cases o1 : ok (span bs 0 n)
  · by_cases o2 : ok (span bs n n)
    · rw [h.dec_ok l1 o1, h.dec_ok l2 o2]
      simp only [o1, o2, true_and, and_self, LawfulOps.one_eq]
      by_cases hz : val (span bs 0 n) = 0 ∧ val (span bs n n) = 0
      · have : (Ops.isZero (val (span bs 0 n)) && Ops.isZero (val (span bs n n))) = true := by
          rw [Bool.and_eq_true, LawfulOps.isZero_iff, LawfulOps.isZero_iff]; exact hz
        rw [if_pos this]
        simp [hz]
      · have : ¬ (Ops.isZero (val (span bs 0 n)) && Ops.isZero (val (span bs n n))) = true := by
          rw [Bool.and_eq_true, LawfulOps.isZero_iff, LawfulOps.isZero_iff]; exact hz
        rw [if_neg this]
        simp only [hz, false_or]
        generalize (⟨val (span bs 0 n), val (span bs n n), 1⟩ : Jac F).isOnCurve b = c
        cases c <;> cases check <;> simp
    · rw [h.dec_not l2 o2]
      simp [o2]
  · rw [h.dec_not l1 o1]
    simp [o1]

/-- What a successful decoding returns. -/
theorem affine_value (h : CoordCodec n dec enc ok val) (b : F) (check : Bool) (bs : List UInt8)
    (hl : bs.length = 2 * n) {a : Jac F} (hd : Jac.fromAffineBytes n dec b check bs = some a) :
    (val (span bs 0 n) = 0 ∧ val (span bs n n) = 0 ∧ a = Jac.zero) ∨
    (¬ (val (span bs 0 n) = 0 ∧ val (span bs n n) = 0) ∧ a = ⟨val (span bs 0 n), val (span bs n n), 1⟩ ∧
      (check = true → a.isOnCurve b = true)) := by
  have l1 : (span bs 0 n).length = n := span_length (by omega)
  have l2 : (span bs n n).length = n := span_length (by omega)
  have ho := ((h.affine_accept b check bs hl).1 (by rw [hd]; rfl)).1
  rw [Jac.fromAffineBytes, h.dec_ok l1 ho.1, h.dec_ok l2 ho.2] at hd
  simp only [LawfulOps.one_eq] at hd
  by_cases hz : val (span bs 0 n) = 0 ∧ val (span bs n n) = 0
  · have : (Ops.isZero (val (span bs 0 n)) && Ops.isZero (val (span bs n n))) = true := by
      rw [Bool.and_eq_true, LawfulOps.isZero_iff, LawfulOps.isZero_iff]; exact hz
    rw [if_pos this] at hd
    exact Or.inl ⟨hz.1, hz.2, (Option.some.inj hd).symm⟩
  · have : ¬ (Ops.isZero (val (span bs 0 n)) && Ops.isZero (val (span bs n n))) = true := by
      rw [Bool.and_eq_true, LawfulOps.isZero_iff, LawfulOps.isZero_iff]; exact hz
    rw [if_neg this] at hd
    split at hd
    · cases hd
    · rename_i hc
      have e := (Option.some.inj hd).symm
      refine Or.inr ⟨hz, e, fun ht => ?_⟩
      rw [e]
      subst ht
      simpa using hc

/-- Decoding, then encoding. -/
theorem affine_enc_dec (h : CoordCodec n dec enc ok val) (h0 : enc 0 = List.replicate n 0) {b : F}
    (check : Bool) (bs : List UInt8) (hl : bs.length = 2 * n) {a : Jac F}
    (hd : Jac.fromAffineBytes n dec b check bs = some a) : Jac.toAffineBytes n enc a = bs := by
  have l1 : (span bs 0 n).length = n := span_length (by omega)
  have l2 : (span bs n n).length = n := span_length (by omega)
  have ho := ((h.affine_accept b check bs hl).1 (by rw [hd]; rfl)).1
  have e1 := (h.codec.enc_dec _ _ l1 (h.dec_ok l1 ho.1)).2
  have e2 := (h.codec.enc_dec _ _ l2 (h.dec_ok l2 ho.2)).2
  have hcat : span bs 0 n ++ span bs n n = bs := span_append (by omega)
  rcases h.affine_value b check bs hl hd with ⟨hx, hy, rfl⟩ | ⟨_, rfl, _⟩
  · rw [Jac.toAffineBytes, if_pos (Jac.isZero_iff.2 LawfulOps.zero_eq)]
    rw [← hcat, ← e1, ← e2, hx, hy, h0, List.replicate_append_replicate]
    congr 1; omega
  · have hz : (⟨val (span bs 0 n), val (span bs n n), 1⟩ : Jac F).isZero = false :=
      Jac.isZero_false.2 one_ne_zero
    rw [Jac.toAffineBytes, hz, if_neg (by decide), Jac.affine]
    have ha : (⟨val (span bs 0 n), val (span bs n n), 1⟩ : Jac F).isAffine = true :=
      (LawfulOps.isOne_iff _).2 rfl
    rw [hz, ha, Bool.or_true, if_pos rfl]
    change enc (val (span bs 0 n)) ++ enc (val (span bs n n)) = bs
    rw [e1, e2, hcat]

/-- Encoding, then decoding. -/
theorem affine_dec_enc (h : CoordCodec n dec enc ok val) (h0 : enc 0 = List.replicate n 0) {b : F}
    (hb : GoodCurve b) (check : Bool) {a : Jac F} {P : (curve b).Point} (ha : a.Rep P) :
    (Jac.toAffineBytes n enc a).length = 2 * n ∧
    ∃ a', Jac.fromAffineBytes n dec b check (Jac.toAffineBytes n enc a) = some a' ∧ a'.Rep P := by
  match P with
  | .zero =>
    have hz : a.isZero = true := ha.isZero_iff.2 rfl
    rw [Jac.toAffineBytes, if_pos hz]
    refine ⟨List.length_replicate .., Jac.zero, ?_, Jac.zero_rep⟩
    have hs : List.replicate (2 * n) (0 : UInt8) = enc 0 ++ enc 0 := by
      rw [h0, List.replicate_append_replicate]; congr 1; omega
    have l0 := h.codec.enc_length 0 trivial
    rw [Jac.fromAffineBytes, hs, span_left l0, span_right l0 l0, h.codec.dec_enc _ trivial]
    simp only
    rw [(LawfulOps.isZero_iff _).2 rfl]
    rfl
  | .some x y hn =>
    have hz : a.isZero = false := Jac.isZero_false.2 ha.1
    have haff := Jac.affine_some ha
    rw [Jac.toAffineBytes, hz, if_neg (by decide), haff]
    have l1 := h.codec.enc_length x trivial
    have l2 := h.codec.enc_length y trivial
    refine ⟨by change (enc x ++ enc y).length = _; rw [List.length_append]; omega, ⟨x, y, 1⟩, ?_,
      one_ne_zero, by simp, by simp⟩
    change Jac.fromAffineBytes n dec b check (enc x ++ enc y) = _
    rw [Jac.fromAffineBytes, span_left l1, span_right l1 l2, h.codec.dec_enc _ trivial,
      h.codec.dec_enc _ trivial]
    simp only [LawfulOps.one_eq]
    have hne : ¬ (Ops.isZero x && Ops.isZero y) = true := by
      rw [Bool.and_eq_true, LawfulOps.isZero_iff, LawfulOps.isZero_iff]
      rintro ⟨rfl, rfl⟩
      have e := point_equation hn
      exact hb.const (by linear_combination -e)
    have hon : (⟨x, y, 1⟩ : Jac F).isOnCurve b = true :=
      (Jac.isOnCurve_iff hb _).2 ⟨.some x y hn, one_ne_zero, by simp, by simp⟩
    rw [if_neg hne, hon]
    cases check <;> rfl

theorem isAffineCodec (h : CoordCodec n dec enc ok val) (h0 : enc 0 = List.replicate n 0) {b : F}
    (hb : GoodCurve b) : IsAffineCodec b (2 * n) (Jac.fromAffineBytes n dec b true) (Jac.toAffineBytes n enc)
      (fun bs => ok (span bs 0 n) ∧ ok (span bs n n)) (fun bs => val (span bs 0 n)) (fun bs => val (span bs n n)) where
  accept bs hl := by
    rw [h.affine_accept b true bs hl]
    refine and_congr_right fun _ => ?_
    simp only [forall_const]
    refine or_congr_right ?_
    rw [Jac.isOnCurve_iff hb]
    constructor
    · rintro ⟨P, hP⟩
      match P, hP with
      | .zero, hP => exact absurd hP one_ne_zero
      | .some x y hn, hP =>
        have e1 := hP.2.1
        have e2 := hP.2.2
        simp only [one_pow, mul_one] at e1 e2
        rw [e1, e2]
        exact point_equation hn
    · intro he
      exact ⟨.some _ _ (hb.nonsingular he), one_ne_zero, by simp, by simp⟩
  meaning bs a hl hd := by
    rcases h.affine_value b true bs hl hd with ⟨hx, hy, rfl⟩ | ⟨hne, ha, hon⟩
    · exact ⟨0, Jac.zero_rep, ⟨fun _ => ⟨hx, hy⟩, fun _ => rfl⟩, fun x y hn e => by cases e⟩
    · obtain ⟨P, hP⟩ := (Jac.isOnCurve_iff hb a).1 (hon rfl)
      refine ⟨P, hP, ?_, ?_⟩
      · rw [← hP.z_iff, ha]
        exact ⟨fun e => absurd e one_ne_zero, fun e => absurd e hne⟩
      · rintro x y hn rfl
        have e1 := hP.2.1
        have e2 := hP.2.2
        rw [ha] at e1 e2
        simp only [one_pow, mul_one] at e1 e2
        exact ⟨e1.symm, e2.symm⟩
  enc_dec bs a hl hd := h.affine_enc_dec h0 true bs hl hd
  dec_enc a P ha := h.affine_dec_enc h0 hb true ha

theorem jacobian_unchecked (h : CoordCodec n dec enc ok val) (b : F) (bs : List UInt8) (hl : bs.length = 3 * n)
    [Decidable (ok (span bs 0 n) ∧ ok (span bs n n) ∧ ok (span bs (2 * n) n))] :
    Jac.fromJacobianBytes n dec b false bs =
      if ok (span bs 0 n) ∧ ok (span bs n n) ∧ ok (span bs (2 * n) n) then
        some ⟨val (span bs 0 n), val (span bs n n), val (span bs (2 * n) n)⟩ else none := by
  have l1 : (span bs 0 n).length = n := span_length (by omega)
  have l2 : (span bs n n).length = n := span_length (by omega)
  have l3 : (span bs (2 * n) n).length = n := span_length (by omega)
  rw [Jac.fromJacobianBytes]
  split_ifs with ho
  · rw [h.dec_ok l1 ho.1, h.dec_ok l2 ho.2.1, h.dec_ok l3 ho.2.2]
    rfl
  · by_cases o1 : ok (span bs 0 n)
    · by_cases o2 : ok (span bs n n)
      · rw [h.dec_not l3 fun o3 => ho ⟨o1, o2, o3⟩, h.dec_ok l1 o1, h.dec_ok l2 o2]
      · rw [h.dec_not l2 o2, h.dec_ok l1 o1]
    · rw [h.dec_not l1 o1]

theorem affine_unchecked (h : CoordCodec n dec enc ok val) (b : F) (bs : List UInt8) (hl : bs.length = 2 * n)
    [Decidable (ok (span bs 0 n) ∧ ok (span bs n n))]
    [Decidable (val (span bs 0 n) = 0 ∧ val (span bs n n) = 0)] :
    Jac.fromAffineBytes n dec b false bs =
      if ok (span bs 0 n) ∧ ok (span bs n n) then
        if val (span bs 0 n) = 0 ∧ val (span bs n n) = 0 then some ⟨0, 1, 0⟩
        else some ⟨val (span bs 0 n), val (span bs n n), 1⟩
      else none := by
  have l1 : (span bs 0 n).length = n := span_length (by omega)
  have l2 : (span bs n n).length = n := span_length (by omega)
  rw [Jac.fromAffineBytes]
  split_ifs with ho hz
  · rw [h.dec_ok l1 ho.1, h.dec_ok l2 ho.2]
    simp only
    rw [(LawfulOps.isZero_iff _).2 hz.1, (LawfulOps.isZero_iff _).2 hz.2, Jac.zero, LawfulOps.zero_eq,
      LawfulOps.one_eq]
    rfl
  · rw [h.dec_ok l1 ho.1, h.dec_ok l2 ho.2]
    simp only
    rw [if_neg (by rw [Bool.and_eq_true, LawfulOps.isZero_iff, LawfulOps.isZero_iff]; exact hz), LawfulOps.one_eq]
    rfl
  · by_cases o1 : ok (span bs 0 n)
    · rw [h.dec_not l2 fun o2 => ho ⟨o1, o2⟩, h.dec_ok l1 o1]
    · rw [h.dec_not l1 o1]

end CoordCodec

theorem IsAffineCodec.congr {F : Type} [Field F] {b : F} {n : ℕ} {dec : List UInt8 → Option (Jac F)}
    {enc : Jac F → List UInt8} {ok ok' : List UInt8 → Prop} {cx cx' cy cy' : List UInt8 → F}
    (h : IsAffineCodec b n dec enc ok cx cy) (ho : ∀ bs, ok' bs ↔ ok bs) (hx : ∀ bs, cx' bs = cx bs)
    (hy : ∀ bs, cy' bs = cy bs) : IsAffineCodec b n dec enc ok' cx' cy' where
  accept bs hl := by rw [ho, hx, hy]; exact h.accept bs hl
  meaning bs a hl hd := by rw [hx, hy]; exact h.meaning bs a hl hd
  enc_dec := h.enc_dec
  dec_enc := h.dec_enc

end

/-! ### The four coordinate codecs -/

section

variable {adx : Bool}

theorem coord1BE (mont : Bool) : CoordCodec 48 (FpV.fromBytesBE adx mont) (FpV.toBytesBE adx mont)
    (fun bs => beVal bs < p) (fun bs => coord mont (beVal bs)) :=
  ⟨FpV.codecBE mont, fun _ _ hl h => FpV.dec_valBE mont hl h⟩

theorem coord1LE (mont : Bool) : CoordCodec 48 (FpV.fromBytesLE adx mont) (FpV.toBytesLE adx mont)
    (fun bs => leVal bs < p) (fun bs => coord mont (leVal bs)) :=
  ⟨FpV.codecLE mont, fun _ _ hl h => FpV.dec_valLE mont hl h⟩

theorem coord2BE (mont : Bool) : CoordCodec 96 (Fp2.fromBytesBE (FpV.fromBytesBE adx mont))
    (Fp2.toBytesBE (FpV.toBytesBE adx mont)) (CanonicalBE 2)
    (fun bs => ⟨coord mont (beVal (chunk bs 1)), coord mont (beVal (chunk bs 0))⟩) where
  codec := (Fp2.codecBE (FpV.codecBE mont)).congr (fun _ => by simp) (fun _ _ => Iff.rfl)
  meaning bs x hl h := by
    rw [Fp2.fromBytesBE_iff] at h
    exact Fp2.ext (FpV.dec_valBE mont (span_length (by omega)) h.2) (FpV.dec_valBE mont (span_length (by omega)) h.1)

theorem coord2LE (mont : Bool) : CoordCodec 96 (Fp2.fromBytesLE (FpV.fromBytesLE adx mont))
    (Fp2.toBytesLE (FpV.toBytesLE adx mont)) (CanonicalLE 2)
    (fun bs => ⟨coord mont (leVal (chunk bs 0)), coord mont (leVal (chunk bs 1))⟩) where
  codec := (Fp2.codecLE (FpV.codecLE mont)).congr (fun _ => by simp) (fun _ _ => Iff.rfl)
  meaning bs x hl h := by
    rw [Fp2.fromBytesLE_iff] at h
    exact Fp2.ext (FpV.dec_valLE mont (span_length (by omega)) h.1) (FpV.dec_valLE mont (span_length (by omega)) h.2)

theorem leVal_replicate (n : ℕ) : leVal (List.replicate n 0) = 0 := by
  induction n with
  | zero => rfl
  | succ n ih => rw [List.replicate_succ, leVal, ih]; rfl

theorem beVal_replicate (n : ℕ) : beVal (List.replicate n 0) = 0 := by
  rw [beVal_eq, List.reverse_replicate, leVal_replicate]

theorem enc0_of {n : ℕ} {F : Type} [Zero F] {dec : List UInt8 → Option F} {enc : F → List UInt8}
    {ok : List UInt8 → Prop} {val : List UInt8 → F} (h : CoordCodec n dec enc ok val)
    (ho : ok (List.replicate n 0)) (hv : val (List.replicate n 0) = 0) : enc 0 = List.replicate n 0 := by
  have := (h.codec.enc_dec _ _ (List.length_replicate ..) (h.dec_ok (List.length_replicate ..) ho)).2
  rwa [hv] at this

theorem coord_zero {K : Type} [Field K] (mont : Bool) : (coord mont 0 : K) = 0 := by
  rw [coord]; split_ifs <;> simp

theorem enc1BE (mont : Bool) : FpV.toBytesBE adx mont 0 = List.replicate 48 0 :=
  enc0_of (coord1BE mont) (by rw [beVal_replicate]; decide +kernel) (by
    change coord mont (beVal _) = _; rw [beVal_replicate, coord_zero])

theorem enc1LE (mont : Bool) : FpV.toBytesLE adx mont 0 = List.replicate 48 0 :=
  enc0_of (coord1LE mont) (by rw [leVal_replicate]; decide +kernel) (by
    change coord mont (leVal _) = _; rw [leVal_replicate, coord_zero])

theorem Fp2.mk_zero (K : Type) [Field K] [IsFp K] : (⟨0, 0⟩ : Fp2 K) = (0 : Fp2 K) := rfl

/-- The zero of the field structure. -/
abbrev fzero (F : Type) [Field F] : F := 0

/-- `enc0_of` with the zero of the field structure. -/
theorem enc0_field {n : ℕ} {F : Type} [Field F] {dec : List UInt8 → Option F} {enc : F → List UInt8}
    {ok : List UInt8 → Prop} {val : List UInt8 → F} (h : CoordCodec n dec enc ok val)
    (ho : ok (List.replicate n 0)) (z : F) (hz : z = 0) (hv : val (List.replicate n 0) = z) :
    enc (fzero F) = List.replicate n 0 :=
  enc0_of h ho (hv.trans hz)

theorem enc2BE (mont : Bool) :
    Fp2.toBytesBE (FpV.toBytesBE adx mont) (fzero (Fp2 (FpV adx))) = List.replicate 96 0 :=
  enc0_field (coord2BE (adx := adx) mont)
  (fun i hi => by
    rcases (by omega : i = 0 ∨ i = 1) with rfl | rfl <;> decide +kernel) ⟨0, 0⟩ (Fp2.mk_zero (FpV adx)) (by
    have h0 : beVal (chunk (List.replicate 96 0) 0) = 0 := by decide +kernel
    have h1 : beVal (chunk (List.replicate 96 0) 1) = 0 := by decide +kernel
    simp only [h0, h1, coord_zero])

theorem enc2LE (mont : Bool) :
    Fp2.toBytesLE (FpV.toBytesLE adx mont) (fzero (Fp2 (FpV adx))) = List.replicate 96 0 :=
  enc0_field (coord2LE (adx := adx) mont)
  (fun i hi => by
    rcases (by omega : i = 0 ∨ i = 1) with rfl | rfl <;> decide +kernel) ⟨0, 0⟩ (Fp2.mk_zero (FpV adx)) (by
    have h0 : leVal (chunk (List.replicate 96 0) 0) = 0 := by decide +kernel
    have h1 : leVal (chunk (List.replicate 96 0) 1) = 0 := by decide +kernel
    simp only [h0, h1, coord_zero])

end

/-! ### Positions of the coordinates -/

theorem canonical_two {f : List UInt8 → ℕ} {bs : List UInt8} :
    (∀ i < 2, f (chunk bs i) < p) ↔ f (span bs 0 48) < p ∧ f (span bs 48 48) < p := by
  constructor
  · intro h; exact ⟨h 0 (by omega), h 1 (by omega)⟩
  · rintro ⟨h0, h1⟩ i hi
    rcases (by omega : i = 0 ∨ i = 1) with rfl | rfl
    · exact h0
    · exact h1

theorem canonical_three {f : List UInt8 → ℕ} {bs : List UInt8} :
    (∀ i < 3, f (chunk bs i) < p) ↔ f (span bs 0 48) < p ∧ f (span bs 48 48) < p ∧ f (span bs 96 48) < p := by
  constructor
  · intro h; exact ⟨h 0 (by omega), h 1 (by omega), h 2 (by omega)⟩
  · rintro ⟨h0, h1, h2⟩ i hi
    rcases (by omega : i = 0 ∨ i = 1 ∨ i = 2) with rfl | rfl | rfl
    · exact h0
    · exact h1
    · exact h2

theorem canonical_four {f : List UInt8 → ℕ} {bs : List UInt8} :
    (∀ i < 4, f (chunk bs i) < p) ↔
      (∀ i < 2, f (chunk (span bs 0 96) i) < p) ∧ (∀ i < 2, f (chunk (span bs 96 96) i) < p) :=
  canonical_add 2 2 bs

theorem canonical_six {f : List UInt8 → ℕ} {bs : List UInt8} :
    (∀ i < 6, f (chunk bs i) < p) ↔
      (∀ i < 2, f (chunk (span bs 0 96) i) < p) ∧ (∀ i < 2, f (chunk (span bs 96 96) i) < p) ∧
      (∀ i < 2, f (chunk (span bs 192 96) i) < p) := by
  rw [show 6 = 2 + 4 from rfl, canonical_add 2 4 bs, show 4 = 2 + 2 from rfl, canonical_add 2 2 (span bs _ _)]
  norm_num only
  rw [span_span (by omega), span_span (by omega)]

theorem pos0 {bs : List UInt8} : chunk (span bs 0 96) 0 = chunk bs 0 := chunk_span (a := 0) (by omega)
theorem pos0' {bs : List UInt8} : chunk (span bs 0 96) 1 = chunk bs 1 := chunk_span (a := 0) (by omega)
theorem pos1 {bs : List UInt8} : chunk (span bs 96 96) 0 = chunk bs 2 := chunk_span (a := 2) (by omega)
theorem pos1' {bs : List UInt8} : chunk (span bs 96 96) 1 = chunk bs 3 := chunk_span (a := 2) (by omega)
theorem pos2 {bs : List UInt8} : chunk (span bs 192 96) 0 = chunk bs 4 := chunk_span (a := 4) (by omega)
theorem pos2' {bs : List UInt8} : chunk (span bs 192 96) 1 = chunk bs 5 := chunk_span (a := 4) (by omega)

theorem two_sq_four {K : Type} [Field K] : (coord true 2 : K) ^ 2 = coord true 0 ^ 3 + 4 := by
  simp only [coord]
  norm_num

end Bls
