import Verif.Model.Codec
import Verif.Spec.Codec
import Verif.Proof.Bytes
import Verif.Proof.FpConv

namespace Bls

namespace Fp

theorem words_val (x : Fp) : wordsVal x.words = x.val := by
  simp only [words, wordsVal, val]; ring

theorem words_ofWords {s : List UInt64} (h : s.length = 6) : (ofWords s).words = s := by
  match s, h with
  | [a, b, c, d, e, f], _ => rfl

theorem ofWords_words (x : Fp) : ofWords x.words = x := rfl

theorem ofWords_val {s : List UInt64} (h : s.length = 6) : (ofWords s).val = wordsVal s := by
  rw [← words_val, words_ofWords h]

theorem words_length (x : Fp) : x.words.length = 6 := rfl

/-- `fromMont` after `toMont` gives the residue. -/
theorem fromMont_toMont (adx : Bool) (x : Fp) : ((x.toMont adx).fromMont adx).val = x.val % p := by
  rw [fromMont_val adx (toMont_rep adx x), ZMod.val_natCast]

theorem toMont_fromMont (adx : Bool) {x : Fp} (hx : x.val < p) : (x.fromMont adx).toMont adx = x := by
  have h := fromMont_spec adx (rep_of_valid hx)
  have h2 := toMont_rep adx (x.fromMont adx)
  rw [h.2] at h2
  exact h2.inj (rep_of_valid hx)

/-- Common shape of both byte orders. -/
theorem codec_aux (adx mont : Bool) {dec : List UInt8 → List UInt64} {enc : List UInt64 → List UInt8}
    {v : List UInt8 → ℕ} (hdl : ∀ bs, (dec bs).length = 6) (hdv : ∀ bs, bs.length = 48 → wordsVal (dec bs) = v bs)
    (hel : ∀ s, s.length = 6 → (enc s).length = 48) (hde : ∀ s, s.length = 6 → dec (enc s) = s)
    (hed : ∀ bs, bs.length = 48 → enc (dec bs) = bs) :
    IsCodec 48 (fun bs => if (true && !(ofWords (dec bs)).isValid) = true then none
        else if mont = true then some ((ofWords (dec bs)).toMont adx) else some (ofWords (dec bs)))
      (fun x => if mont = true then enc (x.fromMont adx).words else enc x.words) (fun x => x.val < p)
      (fun bs => v bs < p) := by
  have hval : ∀ bs, bs.length = 48 → ((ofWords (dec bs)).isValid = true ↔ v bs < p) := fun bs h => by
    rw [isValid_iff, ofWords_val (hdl bs), hdv bs h]
  constructor
  · intro x _
    split <;> exact hel _ rfl
  · intro x hx
    have hx' : (x.fromMont adx).val < p := (fromMont_spec adx (rep_of_valid hx)).1
    cases mont
    · simp only [Bool.false_eq_true, if_false, hde _ (words_length x), ofWords_words, (isValid_iff x).2 hx]
      simp
    · simp only [if_true, hde _ (words_length (x.fromMont adx)), ofWords_words, (isValid_iff _).2 hx',
        toMont_fromMont adx hx]
      simp
  · intro bs h
    rw [← hval bs h]
    cases (ofWords (dec bs)).isValid <;> cases mont <;> simp
  · intro bs x h hd
    have hv : (ofWords (dec bs)).isValid = true := by
      by_contra hne
      simp [hne] at hd
    have hlt := (isValid_iff _).1 hv
    rw [hv] at hd
    cases mont
    · simp only [Bool.and_false, Bool.not_true, Bool.false_eq_true, if_false, Option.some.injEq] at hd
      subst hd
      refine ⟨hlt, ?_⟩
      simp only [Bool.false_eq_true, if_false]
      rw [words_ofWords (hdl bs), hed bs h]
    · simp only [Bool.and_false, Bool.not_true, Bool.false_eq_true, if_false, if_true, Option.some.injEq] at hd
      subst hd
      refine ⟨(toMont_rep adx _).1, ?_⟩
      simp only [if_true]
      have : (toMont adx (ofWords (dec bs))).fromMont adx = ofWords (dec bs) :=
        val_inj (by rw [fromMont_toMont, Nat.mod_eq_of_lt hlt])
      rw [this, words_ofWords (hdl bs), hed bs h]

theorem codecBE (adx mont : Bool) : IsCodec 48 (fromBytesBE adx true mont) (toBytesBE adx mont) (fun x => x.val < p)
    (fun bs => beVal bs < p) :=
  codec_aux adx mont (fun bs => Scalar.fromBytesBE_length 6 bs) (fun bs h => Scalar.fromBytesBE_val 6 bs (by omega))
    (fun s h => by rw [Scalar.toBytesBE_length, h])
    (fun s h => wordsVal_inj (by rw [Scalar.fromBytesBE_length, h])
      ((Scalar.fromBytesBE_val 6 _ (by rw [Scalar.toBytesBE_length, h])).trans (Scalar.toBytesBE_val s)))
    (fun bs h => beVal_inj (by rw [Scalar.toBytesBE_length, Scalar.fromBytesBE_length, h])
      ((Scalar.toBytesBE_val _).trans (Scalar.fromBytesBE_val 6 bs (by omega))))

theorem codecLE (adx mont : Bool) : IsCodec 48 (fromBytesLE adx true mont) (toBytesLE adx mont) (fun x => x.val < p)
    (fun bs => leVal bs < p) :=
  codec_aux adx mont (fun bs => Scalar.fromBytesLE_length 6 bs) (fun bs h => Scalar.fromBytesLE_val 6 bs (by omega))
    (fun s h => by rw [Scalar.toBytesLE_length, h])
    (fun s h => wordsVal_inj (by rw [Scalar.fromBytesLE_length, h])
      ((Scalar.fromBytesLE_val 6 _ (by rw [Scalar.toBytesLE_length, h])).trans (Scalar.toBytesLE_val s)))
    (fun bs h => leVal_inj (by rw [Scalar.toBytesLE_length, Scalar.fromBytesLE_length, h])
      ((Scalar.toBytesLE_val _).trans (Scalar.fromBytesLE_val 6 bs (by omega))))

end Fp

/-! Pasting codecs. -/

theorem span_length {bs : List UInt8} {i n : ℕ} (h : i + n ≤ bs.length) : (span bs i n).length = n := by
  rw [span, List.length_take, List.length_drop]; omega

theorem span_left {a b : List UInt8} {n : ℕ} (h : a.length = n) : span (a ++ b) 0 n = a := by
  rw [span, List.drop_zero, ← h, List.take_left']; rfl

theorem span_right {a b : List UInt8} {n m : ℕ} (h : a.length = n) (h' : b.length = m) : span (a ++ b) n m = b := by
  rw [span, ← h, List.drop_left', ← h', List.take_length]; rfl

theorem span_append {bs : List UInt8} {n m : ℕ} (h : bs.length = n + m) : span bs 0 n ++ span bs n m = bs := by
  rw [span, span, List.drop_zero, List.take_of_length_le (l := bs.drop n) (by rw [List.length_drop]; omega),
    List.take_append_drop]

theorem span_span {bs : List UInt8} {i n j m : ℕ} (h : j + m ≤ n) : span (span bs i n) j m = span bs (i + j) m := by
  rw [span, span, span, List.drop_take, List.drop_drop, List.take_take, min_eq_left (by omega)]

/-- Two codecs one after the other. -/
theorem IsCodec.pair {A B C : Type} {n m : ℕ} {dA : List UInt8 → Option A} {eA : A → List UInt8} {VA : A → Prop}
    {oA : List UInt8 → Prop} {dB : List UInt8 → Option B} {eB : B → List UInt8} {VB : B → Prop}
    {oB : List UInt8 → Prop} (hA : IsCodec n dA eA VA oA) (hB : IsCodec m dB eB VB oB)
    {dC : List UInt8 → Option C} {eC : C → List UInt8} {VC : C → Prop} (f : A → B → C) (g : C → A) (h : C → B)
    (hfgh : ∀ c, f (g c) (h c) = c) (hgf : ∀ a b, g (f a b) = a) (hhf : ∀ a b, h (f a b) = b)
    (hd : ∀ bs, dC bs = (dA (span bs 0 n)).bind fun a => (dB (span bs n m)).map (f a))
    (he : ∀ c, eC c = eA (g c) ++ eB (h c)) (hV : ∀ c, VC c ↔ VA (g c) ∧ VB (h c)) :
    IsCodec (n + m) dC eC VC (fun bs => oA (span bs 0 n) ∧ oB (span bs n m)) := by
  constructor
  · intro c hc
    have := (hV c).1 hc
    rw [he, List.length_append, hA.enc_length _ this.1, hB.enc_length _ this.2]
  · intro c hc
    have := (hV c).1 hc
    rw [hd, he, span_left (hA.enc_length _ this.1), span_right (hA.enc_length _ this.1) (hB.enc_length _ this.2),
      hA.dec_enc _ this.1, hB.dec_enc _ this.2, Option.bind_some, Option.map_some, hfgh]
  · intro bs hl
    have h1 := hA.accept (span bs 0 n) (span_length (by omega))
    have h2 := hB.accept (span bs n m) (span_length (by omega))
    rw [← h1, ← h2, hd]
    cases dA (span bs 0 n) <;> cases dB (span bs n m) <;> simp
  · intro bs c hl hc
    rw [hd] at hc
    cases h1 : dA (span bs 0 n) with
    | none => simp [h1] at hc
    | some a =>
      cases h2 : dB (span bs n m) with
      | none => simp [h1, h2] at hc
      | some b =>
        simp only [h1, h2, Option.bind_some, Option.map_some, Option.some.injEq] at hc
        subst hc
        obtain ⟨v1, e1⟩ := hA.enc_dec _ a (span_length (by omega)) h1
        obtain ⟨v2, e2⟩ := hB.enc_dec _ b (span_length (by omega)) h2
        refine ⟨(hV _).2 (by rw [hgf, hhf]; exact ⟨v1, v2⟩), ?_⟩
        rw [he, hgf, hhf, e1, e2, span_append hl]

theorem IsCodec.congr {A : Type} {n : ℕ} {d : List UInt8 → Option A} {e : A → List UInt8} {V V' : A → Prop}
    {o o' : List UInt8 → Prop} (h : IsCodec n d e V o) (hV : ∀ x, V' x ↔ V x)
    (ho : ∀ bs, bs.length = n → (o' bs ↔ o bs)) : IsCodec n d e V' o' where
  enc_length x hx := h.enc_length x ((hV x).1 hx)
  dec_enc x hx := h.dec_enc x ((hV x).1 hx)
  accept bs hl := (h.accept bs hl).trans (ho bs hl).symm
  enc_dec bs x hl hd := by rw [hV]; exact h.enc_dec bs x hl hd

theorem chunk_span {bs : List UInt8} {a n i : ℕ} (h : 48 * (i + 1) ≤ n) : chunk (span bs (48 * a) n) i = chunk bs (a + i) := by
  have := span_span (bs := bs) (i := 48 * a) (n := n) (j := 48 * i) (m := 48) (by omega)
  rw [chunk, chunk, mul_add]; exact this

theorem canonical_add {f : List UInt8 → ℕ} (k l : ℕ) (bs : List UInt8) :
    (∀ i < k + l, f (chunk bs i) < p) ↔
      (∀ i < k, f (chunk (span bs 0 (48 * k)) i) < p) ∧ (∀ i < l, f (chunk (span bs (48 * k) (48 * l)) i) < p) := by
  constructor
  · intro h
    refine ⟨fun i hi => ?_, fun i hi => ?_⟩
    · rw [show span bs 0 (48 * k) = span bs (48 * 0) (48 * k) from rfl, chunk_span (by omega)]
      exact h _ (by omega)
    · rw [chunk_span (by omega)]; exact h _ (by omega)
  · rintro ⟨h1, h2⟩ i hi
    by_cases hk : i < k
    · have := h1 i hk
      rw [show span bs 0 (48 * k) = span bs (48 * 0) (48 * k) from rfl, chunk_span (by omega), zero_add] at this
      exact this
    · have := h2 (i - k) (by omega)
      rw [chunk_span (by omega), show k + (i - k) = i by omega] at this
      exact this

theorem canonical_one {f : List UInt8 → ℕ} (bs : List UInt8) (h : bs.length = 48) :
    (∀ i < 1, f (chunk bs i) < p) ↔ f bs < p := by
  have e : chunk bs 0 = bs := by rw [chunk, mul_zero, List.drop_zero, List.take_of_length_le (by omega)]
  exact ⟨fun hh => by have := hh 0 (by omega); rwa [e] at this, fun hh i hi => by
    rw [show i = 0 by omega, e]; exact hh⟩

section
variable {K : Type} {dec : List UInt8 → Option K} {enc : K → List UInt8} {V : K → Prop}

theorem Fp2.codecBE (h : IsCodec 48 dec enc V (fun bs => beVal bs < p)) :
    IsCodec 96 (Fp2.fromBytesBE dec) (Fp2.toBytesBE enc) (fun x => V x.c0 ∧ V x.c1) (CanonicalBE 2) := by
  have h1 := h.congr (V' := V) (o' := CanonicalBE 1) (fun _ => Iff.rfl) canonical_one
  have := h1.pair h1 (dC := Fp2.fromBytesBE dec) (eC := Fp2.toBytesBE enc) (fun a b => (⟨b, a⟩ : Fp2 K))
    (fun x => x.c1) (fun x => x.c0) (fun _ => rfl) (fun _ _ => rfl) (fun _ _ => rfl)
    (fun bs => by rw [Fp2.fromBytesBE]; cases dec (span bs 0 48) <;> cases dec (span bs 48 48) <;> rfl) (fun _ => rfl)
    (VC := fun x => V x.c0 ∧ V x.c1) (fun _ => and_comm)
  exact this.congr (fun _ => Iff.rfl) (fun bs _ => canonical_add (f := beVal) 1 1 bs)

theorem Fp2.codecLE (h : IsCodec 48 dec enc V (fun bs => leVal bs < p)) :
    IsCodec 96 (Fp2.fromBytesLE dec) (Fp2.toBytesLE enc) (fun x => V x.c0 ∧ V x.c1) (CanonicalLE 2) := by
  have h1 := h.congr (V' := V) (o' := CanonicalLE 1) (fun _ => Iff.rfl) canonical_one
  have := h1.pair h1 (dC := Fp2.fromBytesLE dec) (eC := Fp2.toBytesLE enc) (fun a b => (⟨a, b⟩ : Fp2 K))
    (fun x => x.c0) (fun x => x.c1) (fun _ => rfl) (fun _ _ => rfl) (fun _ _ => rfl)
    (fun bs => by rw [Fp2.fromBytesLE]; cases dec (span bs 0 48) <;> cases dec (span bs 48 48) <;> rfl) (fun _ => rfl)
    (VC := fun x => V x.c0 ∧ V x.c1) (fun _ => Iff.rfl)
  exact this.congr (fun _ => Iff.rfl) (fun bs _ => canonical_add (f := leVal) 1 1 bs)

/-- The last two coordinates of `fp6`. -/
theorem double {F : Type} {dec : List UInt8 → Option F} {enc : F → List UInt8} {V : F → Prop}
    {o : List UInt8 → Prop} (h : IsCodec 96 dec enc V o) :
    IsCodec 192 (fun bs => (dec (span bs 0 96)).bind fun a => (dec (span bs 96 96)).map (a, ·))
      (fun c => enc c.1 ++ enc c.2) (fun c => V c.1 ∧ V c.2) (fun bs => o (span bs 0 96) ∧ o (span bs 96 96)) :=
  h.pair h (fun a b => (a, b)) (fun c => c.1) (fun c => c.2) (fun _ => rfl) (fun _ _ => rfl) (fun _ _ => rfl)
    (fun _ => rfl) (fun _ => rfl) (fun _ => Iff.rfl)

theorem Fp6.codecBE (h : IsCodec 48 dec enc V (fun bs => beVal bs < p)) :
    IsCodec 288 (Fp6.fromBytesBE dec) (Fp6.toBytesBE enc)
      (fun x => (V x.c0.c0 ∧ V x.c0.c1) ∧ (V x.c1.c0 ∧ V x.c1.c1) ∧ (V x.c2.c0 ∧ V x.c2.c1)) (CanonicalBE 6) := by
  have h2 := Fp2.codecBE h
  have h4 := (double h2).congr (fun _ => Iff.rfl) (o' := CanonicalBE 4)
    (fun bs _ => canonical_add (f := beVal) 2 2 bs)
  have := h2.pair h4 (dC := Fp6.fromBytesBE dec) (eC := Fp6.toBytesBE enc) (fun a b => (⟨b.2, b.1, a⟩ : Fp6 K))
    (fun x => x.c2) (fun x => (x.c1, x.c0)) (fun _ => rfl) (fun _ _ => rfl) (fun _ _ => rfl)
    (fun bs => by
      rw [Fp6.fromBytesBE, span_span (by norm_num), span_span (by norm_num)]
      cases Fp2.fromBytesBE dec (span bs 0 96) <;> cases Fp2.fromBytesBE dec (span bs 96 96) <;>
        cases Fp2.fromBytesBE dec (span bs 192 96) <;> rfl) (fun _ => rfl)
    (VC := fun x => (V x.c0.c0 ∧ V x.c0.c1) ∧ (V x.c1.c0 ∧ V x.c1.c1) ∧ (V x.c2.c0 ∧ V x.c2.c1)) (fun _ => by
      dsimp only; tauto)
  exact this.congr (fun _ => Iff.rfl) (fun bs _ => canonical_add (f := beVal) 2 4 bs)

theorem Fp6.codecLE (h : IsCodec 48 dec enc V (fun bs => leVal bs < p)) :
    IsCodec 288 (Fp6.fromBytesLE dec) (Fp6.toBytesLE enc)
      (fun x => (V x.c0.c0 ∧ V x.c0.c1) ∧ (V x.c1.c0 ∧ V x.c1.c1) ∧ (V x.c2.c0 ∧ V x.c2.c1)) (CanonicalLE 6) := by
  have h2 := Fp2.codecLE h
  have h4 := (double h2).congr (fun _ => Iff.rfl) (o' := CanonicalLE 4)
    (fun bs _ => canonical_add (f := leVal) 2 2 bs)
  have := h2.pair h4 (dC := Fp6.fromBytesLE dec) (eC := Fp6.toBytesLE enc) (fun a b => (⟨a, b.1, b.2⟩ : Fp6 K))
    (fun x => x.c0) (fun x => (x.c1, x.c2)) (fun _ => rfl) (fun _ _ => rfl) (fun _ _ => rfl)
    (fun bs => by
      rw [Fp6.fromBytesLE, span_span (by norm_num), span_span (by norm_num)]
      cases Fp2.fromBytesLE dec (span bs 0 96) <;> cases Fp2.fromBytesLE dec (span bs 96 96) <;>
        cases Fp2.fromBytesLE dec (span bs 192 96) <;> rfl) (fun _ => rfl)
    (VC := fun x => (V x.c0.c0 ∧ V x.c0.c1) ∧ (V x.c1.c0 ∧ V x.c1.c1) ∧ (V x.c2.c0 ∧ V x.c2.c1)) (fun _ => Iff.rfl)
  exact this.congr (fun _ => Iff.rfl) (fun bs _ => canonical_add (f := leVal) 2 4 bs)

theorem Fp12.codecBE (h : IsCodec 48 dec enc V (fun bs => beVal bs < p)) :
    IsCodec 576 (Fp12.fromBytesBE dec) (Fp12.toBytesBE enc)
      (fun x => ((V x.c0.c0.c0 ∧ V x.c0.c0.c1) ∧ (V x.c0.c1.c0 ∧ V x.c0.c1.c1) ∧ (V x.c0.c2.c0 ∧ V x.c0.c2.c1)) ∧
        ((V x.c1.c0.c0 ∧ V x.c1.c0.c1) ∧ (V x.c1.c1.c0 ∧ V x.c1.c1.c1) ∧ (V x.c1.c2.c0 ∧ V x.c1.c2.c1)))
      (CanonicalBE 12) := by
  have h6 := Fp6.codecBE h
  have := h6.pair h6 (dC := Fp12.fromBytesBE dec) (eC := Fp12.toBytesBE enc) (fun a b => (⟨b, a⟩ : Fp12 K))
    (fun x => x.c1) (fun x => x.c0) (fun _ => rfl) (fun _ _ => rfl) (fun _ _ => rfl)
    (fun bs => by
      rw [Fp12.fromBytesBE]
      cases Fp6.fromBytesBE dec (span bs 0 288) <;> cases Fp6.fromBytesBE dec (span bs 288 288) <;> rfl)
    (fun _ => rfl) (fun _ => and_comm)
  exact this.congr (fun _ => Iff.rfl) (fun bs _ => canonical_add (f := beVal) 6 6 bs)

theorem Fp12.codecLE (h : IsCodec 48 dec enc V (fun bs => leVal bs < p)) :
    IsCodec 576 (Fp12.fromBytesLE dec) (Fp12.toBytesLE enc)
      (fun x => ((V x.c0.c0.c0 ∧ V x.c0.c0.c1) ∧ (V x.c0.c1.c0 ∧ V x.c0.c1.c1) ∧ (V x.c0.c2.c0 ∧ V x.c0.c2.c1)) ∧
        ((V x.c1.c0.c0 ∧ V x.c1.c0.c1) ∧ (V x.c1.c1.c0 ∧ V x.c1.c1.c1) ∧ (V x.c1.c2.c0 ∧ V x.c1.c2.c1)))
      (CanonicalLE 12) := by
  have h6 := Fp6.codecLE h
  have := h6.pair h6 (dC := Fp12.fromBytesLE dec) (eC := Fp12.toBytesLE enc) (fun a b => (⟨a, b⟩ : Fp12 K))
    (fun x => x.c0) (fun x => x.c1) (fun _ => rfl) (fun _ _ => rfl) (fun _ _ => rfl)
    (fun bs => by
      rw [Fp12.fromBytesLE]
      cases Fp6.fromBytesLE dec (span bs 0 288) <;> cases Fp6.fromBytesLE dec (span bs 288 288) <;> rfl)
    (fun _ => rfl) (fun _ => Iff.rfl)
  exact this.congr (fun _ => Iff.rfl) (fun bs _ => canonical_add (f := leVal) 6 6 bs)

end

end Bls

namespace Bls
section
variable {K : Type} (dec : List UInt8 → Option K)

theorem span_chunk (bs : List UInt8) {a j : ℕ} {n : ℕ} (i : ℕ) (h : j + 48 ≤ n) (hi : a + j = 48 * i) :
    span (span bs a n) j 48 = chunk bs i := by
  rw [span_span h, hi]; rfl

theorem Fp2.fromBytesBE_iff (bs : List UInt8) (x : Fp2 K) :
    Fp2.fromBytesBE dec bs = some x ↔ dec (span bs 0 48) = some x.c1 ∧ dec (span bs 48 48) = some x.c0 := by
  rw [Fp2.fromBytesBE]
  cases dec (span bs 0 48) <;> cases dec (span bs 48 48) <;> simp [Fp2.ext_iff]
  tauto

theorem Fp2.fromBytesLE_iff (bs : List UInt8) (x : Fp2 K) :
    Fp2.fromBytesLE dec bs = some x ↔ dec (span bs 0 48) = some x.c0 ∧ dec (span bs 48 48) = some x.c1 := by
  rw [Fp2.fromBytesLE]
  cases dec (span bs 0 48) <;> cases dec (span bs 48 48) <;> simp [Fp2.ext_iff]

theorem Fp6.fromBytesBE_iff (bs : List UInt8) (x : Fp6 K) :
    Fp6.fromBytesBE dec bs = some x ↔ Fp2.fromBytesBE dec (span bs 0 96) = some x.c2 ∧
      Fp2.fromBytesBE dec (span bs 96 96) = some x.c1 ∧ Fp2.fromBytesBE dec (span bs 192 96) = some x.c0 := by
  rw [Fp6.fromBytesBE]
  cases Fp2.fromBytesBE dec (span bs 0 96) <;> cases Fp2.fromBytesBE dec (span bs 96 96) <;>
    cases Fp2.fromBytesBE dec (span bs 192 96) <;> simp [Fp6.ext_iff]
  tauto

theorem Fp6.fromBytesLE_iff (bs : List UInt8) (x : Fp6 K) :
    Fp6.fromBytesLE dec bs = some x ↔ Fp2.fromBytesLE dec (span bs 0 96) = some x.c0 ∧
      Fp2.fromBytesLE dec (span bs 96 96) = some x.c1 ∧ Fp2.fromBytesLE dec (span bs 192 96) = some x.c2 := by
  rw [Fp6.fromBytesLE]
  cases Fp2.fromBytesLE dec (span bs 0 96) <;> cases Fp2.fromBytesLE dec (span bs 96 96) <;>
    cases Fp2.fromBytesLE dec (span bs 192 96) <;> simp [Fp6.ext_iff]

theorem Fp12.fromBytesBE_iff (bs : List UInt8) (x : Fp12 K) :
    Fp12.fromBytesBE dec bs = some x ↔ Fp6.fromBytesBE dec (span bs 0 288) = some x.c1 ∧
      Fp6.fromBytesBE dec (span bs 288 288) = some x.c0 := by
  rw [Fp12.fromBytesBE]
  cases Fp6.fromBytesBE dec (span bs 0 288) <;> cases Fp6.fromBytesBE dec (span bs 288 288) <;> simp [Fp12.ext_iff]
  tauto

theorem Fp12.fromBytesLE_iff (bs : List UInt8) (x : Fp12 K) :
    Fp12.fromBytesLE dec bs = some x ↔ Fp6.fromBytesLE dec (span bs 0 288) = some x.c0 ∧
      Fp6.fromBytesLE dec (span bs 288 288) = some x.c1 := by
  rw [Fp12.fromBytesLE]
  cases Fp6.fromBytesLE dec (span bs 0 288) <;> cases Fp6.fromBytesLE dec (span bs 288 288) <;> simp [Fp12.ext_iff]

end
end Bls
