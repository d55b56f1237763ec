import Verif.Proof.HashValues
import Verif.Proof.Cancel
import Verif.Spec.Cfrg

/-! The decisions of the library against those of the draft. -/

namespace Bls.Sig
open Rfc Cfrg

attribute [local irreducible] p q hEff2

section
variable {K : Type} [Field K] [FpOps K] [LawfulFp K] [DecidableEq K]
variable {H : List UInt8 → List UInt8} (hH : ∀ m, Fips.IsSha256 m (H m))
theorem core_draft {pk : G1 K} {P : E1 K} (hP : pk.Rep P) {s : G2 K} {S : E2 K} (hS : s.Rep S) {m t : List UInt8} {Q : E2 K}
    (hQ : IsHash H m t Q) : (∃ n < q, pk.Rep (n • gen1 K) ∧ s.Rep (n • Q)) ↔ CoreVerify H t m P S ∨ P = 0 ∧ S = 0 := by
  have o := hash_order hQ
  constructor
  · rintro ⟨n, -, h1, h2⟩
    have e1 := hP.unique h1
    have e2 := hS.unique h2
    by_cases h : P = 0
    · refine Or.inr ⟨h, ?_⟩
      rw [h] at e1
      have hn : n • gen1 K = 0 • gen1 K := by rw [zero_nsmul]; exact e1.symm
      rw [Keys.smul_gen1_eq_iff] at hn
      rw [e2, ← smul_mod o, hn, smul_mod o, zero_nsmul]
    · exact Or.inl ⟨h, n, Q, hQ, e1, e2⟩
  · rintro (⟨-, n, Q', hQ', h1, h2⟩ | ⟨h1, h2⟩)
    · obtain rfl := hash_unique hQ hQ'
      refine ⟨n % q, Nat.mod_lt _ q_prime.pos, ?_, ?_⟩
      · rw [smul_mod (q_smul_gen1 _), ← h1]; exact hP
      · rw [smul_mod o, ← h2]; exact hS
    · refine ⟨0, q_prime.pos, ?_, ?_⟩
      · rw [zero_nsmul, ← h1]; exact hP
      · rw [zero_nsmul, ← h2]; exact hS

include hH

theorem verify_draft {pk : G1 K} {P : E1 K} (hP : pk.Rep P) {s : G2 K} {S : E2 K} (hS : s.Rep S) {m : List UInt8}
    (hm : m.length < 2 ^ 31) : verify pk m s = some true ↔ CoreVerify H ciphersuiteId m P S ∨ P = 0 ∧ S = 0 := by
  obtain ⟨Q, hQ, b, e, hb⟩ := verify_iff hH pk s hm
  rw [e, Option.some_inj, hb, core_draft hP hS hQ]

theorem pop_draft {pk : G1 K} {P : E1 K} (hP : pk.Rep P) {s : G2 K} {S : E2 K} (hS : s.Rep S) :
    popVerify pk s = some true ↔ CoreVerify H popCiphersuiteId (keyBytes pk) P S ∨ P = 0 ∧ S = 0 := by
  obtain ⟨Q, hQ, b, e, hb⟩ := popVerify_iff hH pk s
  rw [e, Option.some_inj, hb, core_draft hP hS hQ]

theorem contrib_draft {pk : G1 K} {P : E1 K} (hP : pk.Rep P) (S : E2 K) {m : List UInt8} (hm : m.length < 2 ^ 31) :
    (pk.isOnCurve FpC.B = true ∧ pk.inCorrectSubgroup = true) ∧ S = contrib (pk, m) ↔
      CoreVerify H ciphersuiteId m P S ∨ P = 0 ∧ S = 0 := by
  obtain ⟨s, hs⟩ := Jac.exists_rep S
  rw [← verify_draft hH hP hs hm]
  obtain ⟨b, e, hb⟩ := verify_choice pk s hm
  rw [e, Option.some_inj, hb]
  refine and_congr_right fun _ => ⟨fun h => h ▸ hs, fun h => hs.unique h⟩

theorem contribs_draft : ∀ (l : List (G1 K × List UInt8)) (Ps : List (E1 K)) (S : E2 K), (∀ x ∈ l, x.2.length < 2 ^ 31) →
    List.Forall₂ Jac.Rep (l.map Prod.fst) Ps →
    (((∀ x ∈ l, x.1.isOnCurve FpC.B = true ∧ x.1.inCorrectSubgroup = true) ∧ S = (l.map contrib).sum) ↔
      ∃ Ss : List (E2 K), List.Forall₂ (fun x S => CoreVerify H ciphersuiteId x.2 x.1 S ∨ x.1 = 0 ∧ S = 0) (Ps.zip (l.map Prod.snd)) Ss ∧
        S = Ss.sum)
  | [], Ps, S, _, hr => by
    rw [List.map_nil, List.forall₂_nil_left_iff] at hr
    subst hr
    constructor
    · rintro ⟨-, h⟩
      exact ⟨[], .nil, h⟩
    · rintro ⟨Ss, h, h'⟩
      rw [List.map_nil, List.zip_nil_left, List.forall₂_nil_left_iff] at h
      subst h
      exact ⟨fun x hx => (List.not_mem_nil hx).elim, h'⟩
  | x :: l, Ps, S, hl, hr => by
    rw [List.map_cons, List.forall₂_cons_left_iff] at hr
    obtain ⟨P, Ps, hP, hr, rfl⟩ := hr
    have hx : x.2.length < 2 ^ 31 := hl x (List.mem_cons_self ..)
    have ih := fun S => contribs_draft l Ps S (fun y hy => hl y (List.mem_cons_of_mem _ hy)) hr
    rw [List.map_cons, List.map_cons, List.zip_cons_cons, List.sum_cons]
    constructor
    · rintro ⟨h, h'⟩
      obtain ⟨Ss, k, k'⟩ := (ih _).1 ⟨fun y hy => h y (List.mem_cons_of_mem _ hy), rfl⟩
      refine ⟨contrib x :: Ss, .cons ?_ k, ?_⟩
      · exact (contrib_draft hH hP _ hx).1 ⟨h x (List.mem_cons_self ..), rfl⟩
      · rw [List.sum_cons, h', k']
    · rintro ⟨Ss, k, k'⟩
      rw [List.forall₂_cons_left_iff] at k
      obtain ⟨T, Ss, k1, k2, rfl⟩ := k
      obtain ⟨g1, g2⟩ := (contrib_draft hH hP _ hx).2 k1
      obtain ⟨g3, g4⟩ := (ih _).2 ⟨Ss, k2, rfl⟩
      refine ⟨fun y hy => ?_, ?_⟩
      · rcases List.mem_cons.1 hy with rfl | hy
        · exact g1
        · exact g3 y hy
      · rw [k', List.sum_cons, g2, g4]

end

section
variable {K : Type} [Field K] [IsFp K] [DecidableEq K]

open scoped Classical in
theorem filter_draft (H : List UInt8 → List UInt8) (t : List UInt8) : ∀ (l : List (E1 K × List UInt8)) (S : E2 K),
    ((∃ Ss : List (E2 K), List.Forall₂ (fun x S => CoreVerify H t x.2 x.1 S ∨ x.1 = 0 ∧ S = 0) l Ss ∧ S = Ss.sum) ↔
      ∃ Ss : List (E2 K), List.Forall₂ (fun x S => CoreVerify H t x.2 x.1 S) (l.filter fun x => x.1 ≠ 0) Ss ∧ S = Ss.sum)
  | [], S => by
    rw [List.filter_nil]
    simp only [List.forall₂_nil_left_iff]
  | x :: l, S => by
    have ih := filter_draft H t l
    by_cases h : x.1 = 0
    · rw [List.filter_cons_of_neg (by simp [h]), ← ih]
      constructor
      · rintro ⟨Ss, k, k'⟩
        rw [List.forall₂_cons_left_iff] at k
        obtain ⟨T, Ss, k1, k2, rfl⟩ := k
        rcases k1 with k1 | k1
        · exact (k1.1 h).elim
        · exact ⟨Ss, k2, by rw [k', List.sum_cons, k1.2, zero_add]⟩
      · rintro ⟨Ss, k, k'⟩
        exact ⟨0 :: Ss, .cons (Or.inr ⟨h, rfl⟩) k, by rw [k', List.sum_cons, zero_add]⟩
    · rw [List.filter_cons_of_pos (by simp [h])]
      constructor
      · rintro ⟨Ss, k, k'⟩
        rw [List.forall₂_cons_left_iff] at k
        obtain ⟨T, Ss, k1, k2, rfl⟩ := k
        obtain ⟨Ts, k3, k4⟩ := (ih _).1 ⟨Ss, k2, rfl⟩
        rcases k1 with k1 | k1
        · exact ⟨T :: Ts, .cons k1 k3, by rw [k', List.sum_cons, k4, List.sum_cons]⟩
        · exact (h k1.1).elim
      · rintro ⟨Ss, k, k'⟩
        rw [List.forall₂_cons_left_iff] at k
        obtain ⟨T, Ss, k1, k2, rfl⟩ := k
        obtain ⟨Ts, k3, k4⟩ := (ih _).2 ⟨Ss, k2, rfl⟩
        exact ⟨T :: Ts, .cons (Or.inl k1) k3, by rw [k', List.sum_cons, k4, List.sum_cons]⟩

end

section
variable {K : Type} [Field K] [FpOps K] [LawfulFp K] [DecidableEq K]
variable {H : List UInt8 → List UInt8} (hH : ∀ m, Fips.IsSha256 m (H m))
include hH

open scoped Classical in
theorem aggregate_draft {pks : List (G1 K)} {Ps : List (E1 K)} (hr : List.Forall₂ Jac.Rep pks Ps) {s : G2 K} {S : E2 K} (hS : s.Rep S)
    (ms : List (List UInt8)) (hm : ∀ m ∈ ms, m.length < 2 ^ 31) (dup : Bool) :
    aggregateVerify pks ms s dup = some true ↔ pks.length = ms.length ∧ (dup = true → ms.Nodup) ∧
      (CoreAggregateVerify H ciphersuiteId ((Ps.zip ms).filter fun x => x.1 ≠ 0) S ∨
        (∀ P ∈ Ps, P = 0) ∧ S = 0) := by
  by_cases hl : pks.length = ms.length
  · obtain ⟨e1, e2⟩ := eq_zip hl
    have hlP : Ps.length = ms.length := hr.length_eq.symm.trans hl
    obtain ⟨b, e, hb⟩ := aggregateVerify_choice (pks.zip ms) s dup fun x hx => hm _ (List.of_mem_zip hx).2
    rw [← e1, ← e2] at e
    rw [← e2] at hb
    rw [e, Option.some_inj, hb]
    simp only [hl, true_and]
    refine and_congr_right fun _ => ?_
    have hc := contribs_draft hH (pks.zip ms) Ps S (fun x hx => hm _ (List.of_mem_zip hx).2) (by rw [← e1]; exact hr)
    rw [← e2] at hc
    have hs : s.Rep ((pks.zip ms).map contrib).sum ↔ S = ((pks.zip ms).map contrib).sum :=
      ⟨fun h => hS.unique h, fun h => h ▸ hS⟩
    rw [hs, hc, filter_draft]
    constructor
    · rintro ⟨Ss, k, k'⟩
      by_cases h : ((Ps.zip ms).filter fun x => x.1 ≠ 0) = []
      · refine Or.inr ⟨fun P hP => ?_, ?_⟩
        · rw [← List.map_fst_zip hlP.le] at hP
          obtain ⟨x, hx, rfl⟩ := List.mem_map.1 hP
          by_contra h0
          have : x ∈ (Ps.zip ms).filter fun x => x.1 ≠ 0 := List.mem_filter.2 ⟨hx, by simpa using h0⟩
          rw [h] at this
          exact List.not_mem_nil this
        · rw [h, List.forall₂_nil_left_iff] at k
          rw [k', k, List.sum_nil]
      · exact Or.inl ⟨h, Ss, k, k'⟩
    · rintro (⟨-, h⟩ | ⟨h, h'⟩)
      · exact h
      · refine ⟨[], ?_, by rw [h', List.sum_nil]⟩
        rw [List.forall₂_nil_right_iff, List.filter_eq_nil_iff]
        intro x hx
        simpa using h _ (List.of_mem_zip hx).1
  · rw [aggregateVerify_length _ _ _ _ hl]
    simp [hl]

theorem fast_draft {pks : List (G1 K)} {Ps : List (E1 K)} (hr : List.Forall₂ Jac.Rep pks Ps) {s : G2 K} {S : E2 K} (hS : s.Rep S)
    {m : List UInt8} (hm : m.length < 2 ^ 31) :
    popFastAggregateVerify pks m s = some true ↔ Ps ≠ [] ∧ (CoreVerify H ciphersuiteId m Ps.sum S ∨ Ps.sum = 0 ∧ S = 0) := by
  by_cases h : pks = []
  · subst h
    rw [List.forall₂_nil_left_iff] at hr
    subst hr
    simp [popFastAggregateVerify]
  · have h' : Ps ≠ [] := fun e => h (by rw [e, List.forall₂_nil_right_iff] at hr; exact hr)
    obtain ⟨k, hk⟩ := Jac.exists_rep Ps.sum
    rw [fast_eq hr h hk, verify_draft hH hk hS hm]
    exact ⟨fun x => ⟨h', x⟩, fun x => x.2⟩

end

set_option maxRecDepth 100000

/-- The hash of `abc` under the tag of the proof of possession scheme. -/
theorem hash_abc_pop : (fromMessage [97, 98, 99] popSigTag : Option (G2 NatP)).map nats = some [
    3377458470678753999738226304098149499628168883695988989672260501825602028243244163163984403748983550247250395647987,
    3276630448204170275163101232139521517788616964367342276568802295705503821729149479277277175437535607765138944481301,
    3864656541730717419547058273318262512104140676319809089079900631874031043235462234800845886846020323899166888730523,
    49233622386692362939713563922299039493825891592240397268421028611384870238125533148556213146013491675955449992387,
    214023647268219638962912868748374442690308046931677537665860541202135347998028932617535895881285010328123725585809,
    2373998790227597845763961611623609597703228563954602328715326503015468776855091645492877664891165376082812966259979] := by
  decide +kernel

theorem hash_abc_tags (K : Type) [Field K] [FpOps K] [LawfulFp K] : ∃ e e' : G2 K, fromMessage [97, 98, 99] ciphersuiteId = some e ∧
    fromMessage [97, 98, 99] popSigTag = some e' ∧ e.equal e' = false := by
  refine ⟨_, _, hash_transfer K hash_abc, hash_transfer K hash_abc_pop, ?_⟩
  rw [Jac.map_equal]
  decide +kernel

/-- The hashes of `abc` under the two tags. -/
theorem abc_tags (K : Type) [Field K] [FpOps K] [LawfulFp K] [DecidableEq K] {H : List UInt8 → List UInt8}
    (hH : ∀ m, Fips.IsSha256 m (H m)) : ∃ Q Q' : E2 K, IsHash H [97, 98, 99] ciphersuiteId Q ∧ IsHash H [97, 98, 99] popSigTag Q' ∧ Q ≠ Q' := by
  obtain ⟨e, e', h1, h2, h3⟩ := hash_abc_tags K
  obtain ⟨a, k1, P, hP, r⟩ := fromMessage_rep (K := K) hH [97, 98, 99] ciphersuiteId (by decide) id_length.1
  obtain ⟨a', k2, P', hP', r'⟩ := fromMessage_rep (K := K) hH [97, 98, 99] popSigTag (by decide) (by decide)
  rw [h1] at k1
  rw [h2] at k2
  obtain rfl := Option.some.inj k1
  obtain rfl := Option.some.inj k2
  refine ⟨P, P', hP, hP', ?_⟩
  rintro rfl
  rw [(Jac.equal_iff r r').2 rfl] at h3
  exact Bool.noConfusion h3

end Bls.Sig
