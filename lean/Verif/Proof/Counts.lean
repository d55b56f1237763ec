import Verif.Proof.Balance
import Verif.Proof.Subgroup1
import Verif.Proof.Subgroup2
import Verif.Spec.GroupCodec
import Verif.Spec.Codec

/-! How many strings a codec accepts. -/

namespace Bls

attribute [local irreducible] p q

/-- As many strings as values. -/
theorem IsCodec.ncard {F : Type} {n : ℕ} {dec : List UInt8 → Option F} {enc : F → List UInt8} {V : F → Prop}
    {ok : List UInt8 → Prop} (h : IsCodec n dec enc V ok) (W : F → Prop) :
    {bs : List UInt8 | bs.length = n ∧ ∃ a, dec bs = some a ∧ W a}.ncard = {a | V a ∧ W a}.ncard := by
  have e : {bs : List UInt8 | bs.length = n ∧ ∃ a, dec bs = some a ∧ W a} = enc '' {a | V a ∧ W a} := by
    ext bs
    constructor
    · rintro ⟨hl, a, ha, hw⟩
      exact ⟨a, ⟨(h.enc_dec bs a hl ha).1, hw⟩, (h.enc_dec bs a hl ha).2⟩
    · rintro ⟨a, ⟨hv, hw⟩, rfl⟩
      exact ⟨h.enc_length a hv, a, h.dec_enc a hv, hw⟩
  rw [e]
  refine Set.InjOn.ncard_image fun a ha b hb hab => ?_
  have := h.dec_enc a ha.1
  rw [hab, h.dec_enc b hb.1] at this
  exact (Option.some.inj this).symm

section
variable {F : Type} [Field F] {b : F}

/-- The triple with the given `z`. -/
def atZ (z : F) : (curve b).Point → Jac F
  | .zero => ⟨0, 1, 0⟩
  | .some x y _ => ⟨x * z ^ 2, y * z ^ 3, z⟩

theorem atZ_rep {z : F} (hz : z ≠ 0) (P : (curve b).Point) : (atZ z P).Rep P := by
  cases P with
  | zero => exact rfl
  | some x y h => exact ⟨hz, rfl, rfl⟩

theorem atZ_z (z : F) {P : (curve b).Point} (h0 : P ≠ 0) : (atZ z P).z = z := by
  cases P with
  | zero => exact absurd rfl h0
  | some x y h => rfl

theorem eq_atZ {a : Jac F} {P : (curve b).Point} (h : a.Rep P) (h0 : P ≠ 0) : a.z ≠ 0 ∧ a = atZ a.z P := by
  cases P with
  | zero => exact absurd rfl h0
  | some x y h' =>
    obtain ⟨h1, h2, h3⟩ := h
    refine ⟨h1, ?_⟩
    cases a
    simp only [atZ, Jac.mk.injEq]
    exact ⟨h2, h3, trivial⟩

theorem ncard_ne_zero [Finite F] : {z : F | z ≠ 0}.ncard = Nat.card F - 1 := by
  have := Set.ncard_compl ({0} : Set F)
  rw [Set.ncard_singleton] at this
  rw [← this]
  rfl

/-- The triples of a finite point: one for each `z`. -/
theorem ncard_rep [Finite F] {P : (curve b).Point} (h0 : P ≠ 0) : {a : Jac F | a.Rep P}.ncard = Nat.card F - 1 := by
  rw [← ncard_ne_zero]
  have e : {a : Jac F | a.Rep P} = (fun z => atZ z P) '' {z : F | z ≠ 0} := by
    ext a
    constructor
    · exact fun h => ⟨a.z, (eq_atZ h h0).1, (eq_atZ h h0).2.symm⟩
    · rintro ⟨z, hz, rfl⟩
      exact atZ_rep hz P
  rw [e]
  refine Set.InjOn.ncard_image fun z _ z' _ h => ?_
  have := congrArg Jac.z h
  simpa only [atZ_z _ h0] using this

/-- The triples of infinity. -/
theorem ncard_rep_zero : {a : Jac F | a.Rep (0 : (curve b).Point)}.ncard = Nat.card F * Nat.card F := by
  have e : {a : Jac F | a.Rep (0 : (curve b).Point)} = (fun v : F × F => (⟨v.1, v.2, 0⟩ : Jac F)) '' Set.univ := by
    ext a
    constructor
    · intro h
      have hz : a.z = 0 := h
      refine ⟨(a.x, a.y), trivial, ?_⟩
      cases a
      simp only [Jac.mk.injEq]
      exact ⟨trivial, trivial, hz.symm⟩
    · rintro ⟨v, -, rfl⟩
      exact rfl
  rw [e, Set.ncard_image_of_injective, Set.ncard_univ, Nat.card_prod]
  rintro ⟨x, y⟩ ⟨x', y'⟩ h
  simp only [Jac.mk.injEq] at h
  exact Prod.ext h.1 h.2.1

theorem Jac.rep_unique {a : Jac F} {P Q : (curve b).Point} (h : a.Rep P) (h' : a.Rep Q) : P = Q := Jac.Rep.unique h h'

/-- All triples on the curve. -/
theorem ncard_on_curve [Finite F] [Finite (curve b).Point] : {a : Jac F | ∃ P : (curve b).Point, a.Rep P}.ncard =
    (Nat.card (curve b).Point - 1) * (Nat.card F - 1) + Nat.card F * Nat.card F := by
  have hfin : Finite (Jac F) := Finite.of_injective (fun a : Jac F => (a.x, a.y, a.z)) (fun a a' h => by
    cases a; cases a'
    simp only [Prod.mk.injEq] at h
    simp only [Jac.mk.injEq]
    exact h)
  have e : {a : Jac F | ∃ P : (curve b).Point, a.Rep P} =
      (fun v : (curve b).Point × F => atZ v.2 v.1) '' ({P | P ≠ 0} ×ˢ {z : F | z ≠ 0}) ∪
        {a : Jac F | a.Rep (0 : (curve b).Point)} := by
    ext a
    constructor
    · rintro ⟨P, h⟩
      rcases eq_or_ne P 0 with rfl | h0
      · exact Or.inr h
      · exact Or.inl ⟨(P, a.z), ⟨h0, (eq_atZ h h0).1⟩, (eq_atZ h h0).2.symm⟩
    · rintro (⟨⟨P, z⟩, ⟨h0, hz⟩, rfl⟩ | h)
      · exact ⟨P, atZ_rep hz P⟩
      · exact ⟨0, h⟩
  rw [e, Set.ncard_union_eq ?_ (Set.toFinite _) (Set.toFinite _), ncard_rep_zero, Set.InjOn.ncard_image ?_, Set.ncard_prod,
    ncard_ne_zero]
  · have := Set.ncard_compl ({0} : Set (curve b).Point)
    rw [Set.ncard_singleton] at this
    rw [← this]
    rfl
  · rintro ⟨P, z⟩ ⟨h0, hz⟩ ⟨P', z'⟩ ⟨h0', hz'⟩ h
    have h1 : atZ z P = atZ z' P' := h
    have h2 := congrArg Jac.z h1
    rw [atZ_z _ h0, atZ_z _ h0'] at h2
    have h3 := atZ_rep (b := b) hz P
    rw [h1] at h3
    exact Prod.ext (Jac.rep_unique h3 (atZ_rep hz' P')) h2
  · rw [Set.disjoint_left]
    rintro a ⟨⟨P, z⟩, ⟨h0, hz⟩, rfl⟩ h
    exact h0 (Jac.rep_unique (atZ_rep hz P) h)

/-- An affine codec that depends on the point alone has one string for each point. -/
theorem IsAffineCodec.unique {n : ℕ} {dec : List UInt8 → Option (Jac F)} {enc : Jac F → List UInt8}
    {ok : List UInt8 → Prop} {cx cy : List UInt8 → F} (h : IsAffineCodec b n dec enc ok cx cy)
    (hs : ∀ a a' (P : (curve b).Point), a.Rep P → a'.Rep P → enc a = enc a') (P : (curve b).Point) :
    {bs : List UInt8 | bs.length = n ∧ ∃ a, dec bs = some a ∧ a.Rep P} = {enc (atZ 1 P)} := by
  have hr := atZ_rep (one_ne_zero (α := F)) P
  ext bs
  constructor
  · rintro ⟨hl, a, ha, har⟩
    rw [Set.mem_singleton_iff, ← h.enc_dec bs a hl ha]
    exact hs _ _ P har hr
  · rintro rfl
    exact ⟨(h.dec_enc _ P hr).1, (h.dec_enc _ P hr).2⟩

/-- As many strings as points. -/
theorem IsAffineCodec.ncard {n : ℕ} {dec : List UInt8 → Option (Jac F)} {enc : Jac F → List UInt8}
    {ok : List UInt8 → Prop} {cx cy : List UInt8 → F} (h : IsAffineCodec b n dec enc ok cx cy)
    (hs : ∀ a a' (P : (curve b).Point), a.Rep P → a'.Rep P → enc a = enc a') :
    {bs : List UInt8 | bs.length = n ∧ (dec bs).isSome}.ncard = Nat.card (curve b).Point := by
  have e : {bs : List UInt8 | bs.length = n ∧ (dec bs).isSome} = (fun P : (curve b).Point => enc (atZ 1 P)) '' Set.univ := by
    ext bs
    constructor
    · rintro ⟨hl, hb⟩
      obtain ⟨a, ha⟩ := Option.isSome_iff_exists.1 hb
      obtain ⟨P, hP, -⟩ := h.meaning bs a hl ha
      have : bs ∈ {bs : List UInt8 | bs.length = n ∧ ∃ a, dec bs = some a ∧ a.Rep P} := ⟨hl, a, ha, hP⟩
      rw [h.unique hs P] at this
      exact ⟨P, trivial, this.symm⟩
    · rintro ⟨P, -, rfl⟩
      have hr := h.dec_enc _ P (atZ_rep (one_ne_zero (α := F)) P)
      obtain ⟨a, ha, -⟩ := hr.2
      exact ⟨hr.1, by rw [ha]; rfl⟩
  rw [e, Set.ncard_image_of_injective, Set.ncard_univ]
  intro P P' hP
  obtain ⟨a, ha, hr⟩ := (h.dec_enc _ P (atZ_rep (one_ne_zero (α := F)) P)).2
  obtain ⟨a', ha', hr'⟩ := (h.dec_enc _ P' (atZ_rep (one_ne_zero (α := F)) P')).2
  have hP : enc (atZ 1 P) = enc (atZ 1 P') := hP
  rw [hP, ha'] at ha
  obtain rfl := Option.some.inj ha
  exact Jac.rep_unique hr hr'

end

section
variable (K : Type) [Field K] [IsFp K]

theorem Fp2.card : Nat.card (Fp2 K) = p * p := by
  have e : Nat.card (Fp2 K) = Nat.card (K × K) := Nat.card_congr
    { toFun := fun x => (x.c0, x.c1), invFun := fun v => ⟨v.1, v.2⟩, left_inv := fun _ => rfl, right_inv := fun _ => rfl }
  rw [e, Nat.card_prod, IsFp.card]

end

/-- The strings of `n` bytes from a given number on. -/
theorem strings_from (n v : ℕ) : {bs : List UInt8 | bs.length = n ∧ v ≤ beVal bs}.ncard = 256 ^ n - v := by
  have hi : Set.InjOn beVal {bs : List UInt8 | bs.length = n ∧ v ≤ beVal bs} := fun a ha b hb h =>
    beVal_inj (ha.1.trans hb.1.symm) h
  rw [← Set.InjOn.ncard_image hi]
  have e : beVal '' {bs : List UInt8 | bs.length = n ∧ v ≤ beVal bs} = (Finset.Ico v (256 ^ n) : Finset ℕ) := by
    ext k
    rw [Set.mem_image, Finset.mem_coe, Finset.mem_Ico]
    constructor
    · rintro ⟨bs, ⟨h1, h2⟩, rfl⟩
      exact ⟨h2, h1 ▸ beVal_lt bs⟩
    · rintro ⟨h1, h2⟩
      refine ⟨Fips.be n k, ⟨Sha256.be_length _ _, ?_⟩, ?_⟩ <;> rw [Keys.be_val, Nat.mod_eq_of_lt h2]
      exact h1
  rw [e, Set.ncard_coe_finset, Nat.card_Ico]

end Bls
