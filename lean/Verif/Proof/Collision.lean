import Verif.Spec.Collision
import Verif.Proof.Keys

/-! # Where collisions of the derived strings come from -/

namespace Bls.Rfc

variable {H : List UInt8 → List UInt8}

theorem Collide.mono {A A' B B' : List (List UInt8)} (h : Collide H A B) (hA : ∀ a ∈ A, a ∈ A') (hB : ∀ b ∈ B, b ∈ B') :
    Collide H A' B' := by
  obtain ⟨a, ha, b, hb, h⟩ := h
  exact ⟨a, hA a ha, b, hB b hb, h⟩

theorem eq_or_collide {a b : List UInt8} (h : H a = H b) : a = b ∨ Collide H [a] [b] := by
  by_cases e : a = b
  · exact Or.inl e
  · exact Or.inr ⟨a, by simp, b, by simp, e, h⟩

theorem hmac_eq_outer {key : List UInt8} (h : key.length ≤ 64) (text : List UInt8) : hmac H key text = H (hmacOuter H key text) := by
  rw [hmac]
  rw [if_neg (by omega)]
  rfl

theorem xor_inj (c : UInt8) : Function.Injective fun x : UInt8 => x ^^^ c := fun a b h => by
  have h : (a ^^^ c) ^^^ c = (b ^^^ c) ^^^ c := congrArg (· ^^^ c) h
  rwa [UInt8.xor_assoc, UInt8.xor_self, UInt8.xor_zero, UInt8.xor_assoc, UInt8.xor_self, UInt8.xor_zero] at h

theorem pad_inj {k k' u u' : List UInt8} (c : UInt8) (hl : k.length = k'.length)
    (h : (k ++ List.replicate (64 - k.length) 0).map (· ^^^ c) ++ u = (k' ++ List.replicate (64 - k'.length) 0).map (· ^^^ c) ++ u') :
    k = k' ∧ u = u' := by
  obtain ⟨h1, h2⟩ := List.append_inj h (by simp only [List.length_map, List.length_append, List.length_replicate, hl])
  have := List.map_injective_iff.2 (xor_inj c) h1
  exact ⟨(List.append_inj this hl).1, h2⟩

/-- HMAC under keys of one length. -/
theorem hmac_inj {k k' t t' : List UInt8} (hk : k.length ≤ 64) (hl : k.length = k'.length) (h : hmac H k t = hmac H k' t') :
    (k = k' ∧ t = t') ∨ Collide H (hmacInputs H k t) (hmacInputs H k' t') := by
  rw [hmac_eq_outer hk, hmac_eq_outer (hl ▸ hk)] at h
  rcases eq_or_collide h with e | e
  · obtain ⟨rfl, e2⟩ := pad_inj _ hl e
    rcases eq_or_collide e2 with e3 | e3
    · exact Or.inl ⟨rfl, (pad_inj _ rfl e3).2⟩
    · exact Or.inr (e3.mono (by simp [hmacInputs]) (by simp [hmacInputs]))
  · exact Or.inr (e.mono (by simp [hmacInputs]) (by simp [hmacInputs]))

variable (hH : ∀ m, (H m).length = 32)
include hH

theorem expand_take (prk info : List UInt8) {L : ℕ} (hL : 32 ≤ L) : (expand H prk info L).take 32 = hmac H prk (info ++ [1]) := by
  obtain ⟨n, hn⟩ : ∃ n, (L + 31) / 32 = n + 1 := ⟨(L + 31) / 32 - 1, by omega⟩
  rw [expand, List.take_take, Nat.min_eq_left hL, hn, List.range_succ_eq_map, List.map_cons, List.flatten_cons,
    List.take_append_of_le_length (by rw [T, hmac]; exact (hH _).ge), List.take_of_length_le (by rw [T, hmac]; exact (hH _).le)]
  rfl

/-- HKDF with salts of one length, even if only the first 32 bytes agree. -/
theorem hkdf_inj {s s' k k' i i' : List UInt8} {L L' : ℕ} (hs : s.length ≤ 64) (hl : s.length = s'.length) (hL : 32 ≤ L) (hL' : 32 ≤ L')
    (h : (expand H (extract H s k) i L).take 32 = (expand H (extract H s' k') i' L').take 32) :
    (s = s' ∧ k = k' ∧ i = i') ∨ Collide H (hkdfInputs H s k i) (hkdfInputs H s' k' i') := by
  rw [expand_take hH _ _ hL, expand_take hH _ _ hL'] at h
  have el : ∀ s k : List UInt8, (extract H s k).length = 32 := fun s k => by rw [extract, hmac]; exact hH _
  have ee : extract H s k = H (hmacOuter H s k) := hmac_eq_outer hs k
  have ee' : extract H s' k' = H (hmacOuter H s' k') := hmac_eq_outer (hl ▸ hs) k'
  rcases hmac_inj (by rw [el]; omega) ((el s k).trans (el s' k').symm) h with ⟨e1, e2⟩ | e
  · rcases hmac_inj hs hl e1 with ⟨e3, e4⟩ | e
    · exact Or.inl ⟨e3, e4, List.append_cancel_right e2⟩
    · exact Or.inr (e.mono (fun _ h => List.mem_append_left _ h) fun _ h => List.mem_append_left _ h)
  · rw [ee, ee'] at e
    exact Or.inr (e.mono (fun _ h => List.mem_append_right _ h) fun _ h => List.mem_append_right _ h)

theorem be1_inj {a b : ℕ} (ha : a ≤ 255) (hb : b ≤ 255) (h : Fips.be 1 a = Fips.be 1 b) : a = b := by
  have := congrArg beVal h
  rw [Keys.be_val, Keys.be_val] at this
  omega

/-- `expand_message_xmd`, even if only the first 32 bytes agree. -/
theorem xmd_inj {m m' d d' o o' : List UInt8} {L L' : ℕ} (hL : 32 ≤ L) (hL' : 32 ≤ L') (hb : L ≤ 65535) (hb' : L' ≤ 65535)
    (h : expandMessageXmd H m d L = some o) (h' : expandMessageXmd H m' d' L' = some o') (he : o.take 32 = o'.take 32) :
    (m = m' ∧ d = d' ∧ L = L') ∨ Collide H (xmdInputs H m d L) (xmdInputs H m' d' L') := by
  have first : ∀ {m d o : List UInt8} {L : ℕ}, 32 ≤ L → expandMessageXmd H m d L = some o → d.length ≤ 255 ∧
      o.take 32 = H (H (xmdFirst m d L) ++ [1] ++ (d ++ Fips.be 1 d.length)) := by
    intro m d o L hL h
    rw [expandMessageXmd] at h
    dsimp only at h
    split_ifs at h with hc
    refine ⟨by omega, ?_⟩
    obtain ⟨n, hn⟩ : ∃ n, (L + 31) / 32 = n + 1 := ⟨(L + 31) / 32 - 1, by omega⟩
    rw [← Option.some.inj h, List.take_take, Nat.min_eq_left hL, hn, List.range_succ_eq_map, List.map_cons, List.flatten_cons,
      List.take_append_of_le_length (by rw [xmdBlock]; exact (hH _).ge), List.take_of_length_le (by rw [xmdBlock]; exact (hH _).le)]
    rfl
  obtain ⟨l, e⟩ := first hL h
  obtain ⟨l', e'⟩ := first hL' h'
  have tag : ∀ {u u' : List UInt8}, u ++ (d ++ Fips.be 1 d.length) = u' ++ (d' ++ Fips.be 1 d'.length) → u = u' ∧ d = d' := by
    intro u u' h
    rw [← List.append_assoc, ← List.append_assoc] at h
    obtain ⟨h1, h2⟩ := List.append_inj' h (by rw [Sha256.be_length, Sha256.be_length])
    exact List.append_inj' h1 (be1_inj hH l l' h2)
  rw [e, e'] at he
  rcases eq_or_collide he with h1 | h1
  · obtain ⟨h2, h3⟩ := tag h1
    obtain ⟨h4, -⟩ := List.append_inj' h2 rfl
    rcases eq_or_collide h4 with h5 | h5
    · obtain ⟨h6, -⟩ := tag h5
      obtain ⟨h7, -⟩ := List.append_inj' h6 rfl
      obtain ⟨h8, h9⟩ := List.append_inj' h7 (by rw [Sha256.be_length, Sha256.be_length])
      refine Or.inl ⟨List.append_cancel_left h8, h3, ?_⟩
      have := congrArg beVal h9
      rw [Keys.be_val, Keys.be_val] at this
      omega
    · exact Or.inr (h5.mono (by simp [xmdInputs]) (by simp [xmdInputs]))
  · exact Or.inr (h1.mono (by simp [xmdInputs]) (by simp [xmdInputs]))

theorem lamport_inj {a b i j : ℕ} (ha : a < 256 ^ 32) (hb : b < 256 ^ 32) (hi : i < 2 ^ 32) (hj : j < 2 ^ 32)
    (h : KeyGen.lamportPk H a i = KeyGen.lamportPk H b j) :
    (a = b ∧ i = j) ∨ Collide H (lamportInputs H a i) (lamportInputs H b j) := by
  have first : ∀ (k s rest : List UInt8), s.length ≤ 64 → ∃ r, ((KeyGen.lamportSk H k s).map H).flatten ++ rest =
      H (H (hmacOuter H (H (hmacOuter H s k)) [1])) ++ r ∧
      (expand H (extract H s k) [] 8160).take 32 = H (hmacOuter H (H (hmacOuter H s k)) [1]) := by
    intro k s rest hs
    have e1 : (expand H (extract H s k) [] 8160).take 32 = H (hmacOuter H (H (hmacOuter H s k)) [1]) := by
      rw [expand_take hH _ _ (by norm_num), List.nil_append, extract, hmac_eq_outer hs, hmac_eq_outer (by rw [hH]; norm_num)]
    obtain ⟨t, ht⟩ : ∃ t, KeyGen.lamportSk H k s = (expand H (extract H s k) [] 8160).take 32 :: t := by
      unfold KeyGen.lamportSk
      rw [show (255 : ℕ) = 254 + 1 from rfl, List.range_succ_eq_map, List.map_cons, Nat.mul_zero, List.drop_zero]
      exact ⟨_, rfl⟩
    exact ⟨(t.map H).flatten ++ rest, by rw [ht, List.map_cons, List.flatten_cons, e1, List.append_assoc], e1⟩
  have hs : ∀ i : ℕ, (Fips.be 4 i).length ≤ 64 := fun i => by rw [Sha256.be_length]; norm_num
  rw [KeyGen.lamportPk, KeyGen.lamportPk] at h
  rcases eq_or_collide h with e | e
  · obtain ⟨r, e1, f1⟩ := first (Fips.be 32 a) (Fips.be 4 i)
      (((KeyGen.lamportSk H ((Fips.be 32 a).map (255 - ·)) (Fips.be 4 i)).map H).flatten) (hs i)
    obtain ⟨r', e2, f2⟩ := first (Fips.be 32 b) (Fips.be 4 j)
      (((KeyGen.lamportSk H ((Fips.be 32 b).map (255 - ·)) (Fips.be 4 j)).map H).flatten) (hs j)
    rw [e1, e2] at e
    obtain ⟨e3, -⟩ := List.append_inj e (by rw [hH, hH])
    rcases eq_or_collide e3 with e4 | e4
    · rw [← f1, ← f2] at e4
      rcases hkdf_inj hH (hs i) (by rw [Sha256.be_length, Sha256.be_length]) (by norm_num) (by norm_num) e4 with ⟨g1, g2, -⟩ | g
      · have h1 := congrArg beVal g1
        have h2 := congrArg beVal g2
        rw [Keys.be_val, Keys.be_val, Nat.mod_eq_of_lt (by omega), Nat.mod_eq_of_lt (by omega)] at h1
        rw [Keys.be_val, Keys.be_val, Nat.mod_eq_of_lt ha, Nat.mod_eq_of_lt hb] at h2
        exact Or.inl ⟨h2, h1⟩
      · exact Or.inr (g.mono (fun _ h => List.mem_append_left _ h) fun _ h => List.mem_append_left _ h)
    · exact Or.inr (e4.mono (by simp [lamportInputs]) (by simp [lamportInputs]))
  · exact Or.inr (e.mono (by simp [lamportInputs]) (by simp [lamportInputs]))

omit hH in
/-- Zeros at the end of a short HMAC key do not matter. -/
theorem hmac_pad {key : List UInt8} (h : key.length < 64) (text : List UInt8) : hmac H (key ++ [0]) text = hmac H key text := by
  rw [hmac, hmac]
  have : (key ++ [0]).length = key.length + 1 := by simp
  rw [if_neg (by omega), if_neg (by omega), this, List.append_assoc, show [(0 : UInt8)] ++ List.replicate (64 - (key.length + 1)) 0 =
    List.replicate (64 - key.length) 0 from by
      rw [show 64 - key.length = (64 - (key.length + 1)) + 1 by omega, List.replicate_succ]; rfl]

end Bls.Rfc
