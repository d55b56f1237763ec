import Verif.Proof.Signatures

/-! # Infinity as a key, and sums of keys off the curve -/

namespace Bls.Sig
open Rfc Pairing

variable {K : Type} [Field K] [FpOps K] [LawfulFp K] [DecidableEq K]

attribute [local irreducible] p q hEff2 eps pairVal

theorem rep1_of_isZero {a : G1 K} (h : a.isZero = true) : a.Rep (0 : E1 K) := Jac.rep_zero_iff.2 (Jac.isZero_iff.1 h)

theorem rep2_of_isZero {a : G2 K} (h : a.isZero = true) : a.Rep (0 : E2 K) := Jac.rep_zero_iff.2 (Jac.isZero_iff.1 h)

theorem core_zero {pk : G1 K} {h s : G2 K} {P : E2 K} (hh : h.Rep P) (o : q • P = 0) (h1 : pk.isZero = true)
    (h2 : s.isZero = true) : core pk h s = some true := by
  rw [some_true_iff (core_iff pk s hh o)]
  refine ⟨0, q_prime.pos, ?_, ?_⟩
  · rw [zero_nsmul]; exact rep1_of_isZero h1
  · rw [zero_nsmul]; exact rep2_of_isZero h2

theorem verify_zero {pk : G1 K} {m : List UInt8} {s : G2 K} (hm' : m.length < 2 ^ 31) (h1 : pk.isZero = true)
    (h2 : s.isZero = true) : verify pk m s = some true := by
  have e := hm_eq (K := K) hm'
  obtain ⟨P, r, o⟩ := fromMessage_some id_length.1 e
  rw [verify_eq, e, Option.bind_some]
  exact core_zero r o h1 h2

theorem keyBytes_short (pk : G1 K) : (keyBytes pk).length < 2 ^ 31 := by rw [keyBytes_length]; decide

theorem popVerify_zero {pk : G1 K} {s : G2 K} (h1 : pk.isZero = true) (h2 : s.isZero = true) : popVerify pk s = some true := by
  obtain ⟨a, e, -⟩ := fromMessage_rep (K := K) sha_spec (keyBytes pk) _ (keyBytes_short pk) id_length.2
  obtain ⟨P, r, o⟩ := fromMessage_some id_length.2 e
  rw [popVerify_eq, e, Option.bind_some]
  exact core_zero r o h1 h2

/-- A signature accepted for infinity is infinity. -/
theorem accepted_zero {pk : G1 K} {s : G2 K} {P : E2 K} {n : ℕ} (o : q • P = 0) (h1 : pk.Rep (n • gen1 K))
    (h2 : s.Rep (n • P)) (hz : pk.isZero = true) : s.isZero = true := by
  have e := h1.unique (rep1_of_isZero hz)
  have e0 : n • gen1 K = 0 • gen1 K := by rw [e, zero_nsmul]
  rw [Keys.smul_gen1_eq_iff, Nat.zero_mod] at e0
  rw [h2.isZero_iff, ← smul_mod o, e0, zero_nsmul]

theorem accepted_zero' {pk : G1 K} {s : G2 K} {P : E2 K} {n : ℕ} (o : q • P = 0) (hP : P ≠ 0) (h1 : pk.Rep (n • gen1 K))
    (h2 : s.Rep (n • P)) (hz : s.isZero = true) : pk.isZero = true := by
  have e := h2.isZero_iff.1 hz
  rw [h1.isZero_iff]
  have hd : addOrderOf P = q := (Nat.dvd_prime q_prime).1 (addOrderOf_dvd_of_nsmul_eq_zero o) |>.resolve_left
    fun h => hP (AddMonoid.addOrderOf_eq_one_iff.1 h)
  have hdv : q ∣ n := by rw [← hd]; exact addOrderOf_dvd_of_nsmul_eq_zero e
  rw [← smul_mod (q_smul_gen1 K), Nat.mod_eq_zero_of_dvd hdv, zero_nsmul]

theorem contrib_zero {pk : G1 K} {m : List UInt8} (hm' : m.length < 2 ^ 31) (h : pk.isZero = true)
    (hv : pk.isOnCurve FpC.B = true ∧ pk.inCorrectSubgroup = true) : contrib (pk, m) = 0 := by
  have o := (hpt_spec (K := K) hm').2
  have e := (scal_spec hv).unique (rep1_of_isZero h)
  have e0 : scal pk • gen1 K = 0 • gen1 K := by rw [e, zero_nsmul]
  rw [Keys.smul_gen1_eq_iff, Nat.zero_mod] at e0
  rw [contrib, ← smul_mod o, e0, zero_nsmul]

theorem valid_zero {pk : G1 K} (h : pk.isZero = true) : pk.isOnCurve FpC.B = true ∧ pk.inCorrectSubgroup = true :=
  member1.2 ⟨0, q_prime.pos, by rw [zero_nsmul]; exact rep1_of_isZero h⟩

/-- Infinity together with any message does not change the answer of `aggregate_verify`. -/
theorem aggregate_zero {pk : G1 K} {m : List UInt8} (hm' : m.length < 2 ^ 31) (h : pk.isZero = true)
    (l : List (G1 K × List UInt8)) (hl : ∀ x ∈ l, x.2.length < 2 ^ 31) (s : G2 K) (dup : Bool)
    (hd : dup = true → m ∉ l.map Prod.snd) :
    aggregateVerify (pk :: l.map Prod.fst) (m :: l.map Prod.snd) s dup =
      aggregateVerify (l.map Prod.fst) (l.map Prod.snd) s dup := by
  obtain ⟨b, e, hb⟩ := aggregateVerify_choice l s dup hl
  obtain ⟨b', e', hb'⟩ := aggregateVerify_choice ((pk, m) :: l) s dup (by
    intro x hx
    rcases List.mem_cons.1 hx with rfl | hx
    · exact hm'
    · exact hl x hx)
  rw [List.map_cons, List.map_cons] at e'
  rw [e, e', Option.some_inj, Bool.eq_iff_iff, hb, hb', List.map_cons, List.map_cons, List.sum_cons,
    contrib_zero hm' h (valid_zero h), zero_add, List.nodup_cons]
  constructor
  · rintro ⟨h1, h2, h3⟩
    exact ⟨fun k => (h1 k).2, fun x hx => h2 x (List.mem_cons_of_mem _ hx), h3⟩
  · rintro ⟨h1, h2, h3⟩
    refine ⟨fun k => ⟨hd k, h1 k⟩, fun x hx => ?_, h3⟩
    rcases List.mem_cons.1 hx with rfl | hx
    · exact valid_zero h
    · exact h2 x hx

/-- No keys: only infinity is accepted. -/
theorem aggregate_nil (s : G2 K) (dup : Bool) : ∃ b, aggregateVerify [] [] s dup = some b ∧ (b = true ↔ s.isZero = true) := by
  obtain ⟨b, e, hb⟩ := aggregateVerify_choice ([] : List (G1 K × List UInt8)) s dup (by simp)
  refine ⟨b, e, hb.trans ?_⟩
  rw [List.map_nil, List.map_nil, List.sum_nil]
  constructor
  · rintro ⟨-, -, h⟩
    exact h.isZero_iff.2 rfl
  · intro h
    exact ⟨fun _ => List.nodup_nil, fun x hx => absurd hx (by simp), rep2_of_isZero h⟩

/-! Sums of keys. -/

theorem fast_eq {pks : List (G1 K)} {Ps : List (E1 K)} (h : List.Forall₂ Jac.Rep pks Ps) (h0 : pks ≠ []) {k : G1 K}
    (hk : k.Rep Ps.sum) (m : List UInt8) (s : G2 K) : popFastAggregateVerify pks m s = verify k m s := by
  obtain ⟨pk0, pks', rfl⟩ := List.exists_cons_of_ne_nil h0
  unfold popFastAggregateVerify
  rw [if_neg (by simp), verify_eq, verify_eq]
  refine bind_congr_some fun a e => ?_
  obtain ⟨P, r, o⟩ := fromMessage_some id_length.1 e
  by_cases hs : s.isOnCurve Fp2.B = true
  · obtain ⟨S, hS⟩ := G2.onCurve_iff.1 hs
    exact core_congr (Keys.aggregate_rep (goodCurve1 K) h) hk hS hS r o
  · rw [core_reject (Or.inr fun h => hs h.1), core_reject (Or.inr fun h => hs h.1)]

theorem reps_of_onCurve : ∀ {pks : List (G1 K)}, (∀ a ∈ pks, a.isOnCurve FpC.B = true) → ∃ Ps : List (E1 K), List.Forall₂ Jac.Rep pks Ps
  | [], _ => ⟨[], .nil⟩
  | a :: l, h => by
    obtain ⟨P, hP⟩ := G1.onCurve_iff.1 (h a (by simp))
    obtain ⟨Ps, hPs⟩ := reps_of_onCurve (pks := l) fun b hb => h b (by simp [hb])
    exact ⟨P :: Ps, .cons hP hPs⟩

theorem fast_perm {pks pks' : List (G1 K)} (hp : pks.Perm pks') (h : ∀ a ∈ pks, a.isOnCurve FpC.B = true)
    (m : List UInt8) (s : G2 K) : popFastAggregateVerify pks m s = popFastAggregateVerify pks' m s := by
  obtain ⟨Ps, hPs⟩ := reps_of_onCurve h
  obtain ⟨Ps', hPs', hs⟩ : ∃ Ps' : List (E1 K), List.Forall₂ Jac.Rep pks' Ps' ∧ Ps'.sum = Ps.sum := by
    obtain ⟨Ps', h1, h2⟩ := Keys.perm_forall₂ hPs hp
    exact ⟨Ps', h1, h2.sum_eq.symm⟩
  by_cases h0 : pks = []
  · subst h0
    rw [List.nil_perm] at hp
    rw [hp]
  · have h0' : pks' ≠ [] := by rintro rfl; exact h0 hp.eq_nil
    have hk := Keys.aggregate_rep (goodCurve1 K) hPs
    rw [fast_eq hPs h0 hk, fast_eq hPs' h0' (hs ▸ hk)]

/-! Four keys off the curve. -/

theorem map_onCurve {N F : Type} [FpOps N] [FpOps F] (f : N → F) [FpHom f] (a : Jac N) :
    (a.map f).isOnCurve FpC.B = a.isOnCurve FpC.B := by
  have hB : (FpC.B : F) = f FpC.B := (FpHom.h_const (f := f) _ (by decide +kernel)).symm
  have e1 : ∀ x y, Ops.equal (f x) (f y) = Ops.equal x y := OpsHom.h_equal (f := f)
  rw [Jac.isOnCurve, Jac.isOnCurve, Jac.map_isZero, hB]
  simp only [Jac.map, ← OpsHom.h_mul (f := f), ← OpsHom.h_sqr (f := f), ← OpsHom.h_add (f := f), e1]

theorem map_aggregate {N F : Type} [FpOps N] [FpOps F] (f : N → F) [FpHom f] (l : List (Jac N)) :
    Keys.aggregate (l.map (Jac.map f)) = (Keys.aggregate l).map f := by
  have h : ∀ (l : List (Jac N)) (a : Jac N), (l.map (Jac.map f)).foldl Jac.add (a.map f) = (l.foldl Jac.add a).map f := by
    intro l
    induction l with
    | nil => intro a; rfl
    | cons e l ih => intro a; rw [List.map_cons, List.foldl_cons, List.foldl_cons, ← Jac.map_add, ih]
  have h0 : (⟨Ops.zero, Ops.zero, Ops.zero⟩ : Jac F) = Jac.map f ⟨Ops.zero, Ops.zero, Ops.zero⟩ := by
    rw [Jac.map, OpsHom.h_zero (f := f)]
  rw [Keys.aggregate, Keys.aggregate, h0, h]

namespace Off

def a : Jac NatP := ⟨(1 : ℕ), (1 : ℕ), (1 : ℕ)⟩
def b : Jac NatP := ⟨(2 : ℕ), (1 : ℕ), (1 : ℕ)⟩
def c : Jac NatP := ⟨Ops.neg (2 : ℕ), (0 : ℕ), (1 : ℕ)⟩
def d : Jac NatP := Jac.negate ((a.add b).add c)

theorem first : (Keys.aggregate [a, b, c, d]).isZero = true := by decide +kernel

theorem second : (Keys.aggregate [a, c, b, d]).isOnCurve FpC.B = false := by decide +kernel

end Off

variable (K) in
/-- Two orders of the same keys with different answers. -/
theorem fast_order : ∃ pks pks' : List (G1 K), pks.Perm pks' ∧ ∀ (m : List UInt8) (s : G2 K), m.length < 2 ^ 31 → s.isZero = true →
    popFastAggregateVerify pks m s = some true ∧ popFastAggregateVerify pks' m s = some false := by
  refine ⟨[Off.a, Off.b, Off.c, Off.d].map (Jac.map (NatP.cast K)), [Off.a, Off.c, Off.b, Off.d].map (Jac.map (NatP.cast K)),
    List.Perm.map _ (.cons _ (.swap _ _ _)), fun m s hm' hs => ⟨?_, ?_⟩⟩
  · rw [popFastAggregateVerify, if_neg (by simp)]
    refine verify_zero hm' ?_ hs
    rw [map_aggregate, Jac.map_isZero, Off.first]
  · rw [popFastAggregateVerify, if_neg (by simp), verify_eq, hm_eq hm', Option.bind_some]
    refine core_reject (Or.inl fun h => ?_)
    rw [map_aggregate, map_onCurve, Off.second] at h
    exact absurd h.1 (by simp)

end Bls.Sig
