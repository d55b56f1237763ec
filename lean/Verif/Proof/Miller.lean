import Verif.Proof.FinalExp
import Mathlib.Algebra.BigOperators.Group.List.Basic

/-! The Miller loop of a list is the product of the Miller loops of its entries. -/

namespace Bls.Pairing

variable {K : Type} [Field K] [FpOps K] [LawfulFp K]

/-- The value of a line at a point, as `mulBy014Assign` uses it. -/
def lineVal (P : G1 K) (c : Coeff K) : Fp12 K := Fp12.line c.c0 (c.c1 * Fp2.ofBase P.x) (c.c2 * Fp2.ofBase P.y)

/-- The loop over values of lines. -/
def loopVal (L : ℕ → Fp12 K) : ℕ → ℕ → Fp12 K → Fp12 K
  | 0, _, f => f
  | i + 1, k, f =>
    let f := if i ≠ 62 then f * f else f
    if loopBit i then loopVal L i (k + 2) (f * L k * L (k + 1)) else loopVal L i (k + 1) (f * L k)

/-- The entries of a table. -/
def entry (cs : List (Coeff K)) (k : ℕ) : Coeff K := cs.getD k ⟨0, 0, 0⟩

theorem loopVal_mul (L M : ℕ → Fp12 K) : ∀ (i k : ℕ) (f g : Fp12 K),
    loopVal (fun k => L k * M k) i k (f * g) = loopVal L i k f * loopVal M i k g
  | 0, _, _, _ => rfl
  | i + 1, k, f, g => by
    simp only [loopVal]
    by_cases h : i ≠ 62 <;> by_cases hb : loopBit i = true
    · rw [if_pos h, if_pos hb, if_pos h, if_pos hb, if_pos h, if_pos hb, ← loopVal_mul]; congr 1; ring
    · rw [if_pos h, if_neg hb, if_pos h, if_neg hb, if_pos h, if_neg hb, ← loopVal_mul]; congr 1; ring
    · rw [if_neg h, if_pos hb, if_neg h, if_pos hb, if_neg h, if_pos hb, ← loopVal_mul]; congr 1; ring
    · rw [if_neg h, if_neg hb, if_neg h, if_neg hb, if_neg h, if_neg hb, ← loopVal_mul]; congr 1; ring

theorem loopVal_one : ∀ (i k : ℕ), loopVal (fun _ => (1 : Fp12 K)) i k 1 = 1
  | 0, _ => rfl
  | i + 1, k => by
    simp only [loopVal, mul_one, ite_self, loopVal_one i]

/-- Number of table entries consumed by `i` iterations. -/
def entries : ℕ → ℕ
  | 0 => 0
  | i + 1 => if loopBit i then entries i + 2 else entries i + 1

theorem preComputeLoop_length (tp : G2 K) : ∀ (i : ℕ) (r : G2 K), (preComputeLoop tp i r).length = entries i
  | 0, _ => rfl
  | i + 1, r => by
    simp only [preComputeLoop, entries]
    by_cases hb : loopBit i = true
    · rw [if_pos hb, if_pos hb, List.length_cons, List.length_cons, preComputeLoop_length]
    · rw [if_neg hb, if_neg hb, List.length_cons, preComputeLoop_length]

theorem entries_63 : entries 63 = 68 := by decide +kernel

theorem preCompute_length (Q : G2 K) : (preCompute Q).length = 68 := by
  unfold preCompute
  split
  · rw [List.length_replicate]
  · rw [preComputeLoop_length, entries_63]

theorem ell_eq {k : ℕ} (f : Fp12 K) (P : G1 K) (cs : List (Coeff K)) (hk : k < cs.length) :
    ell k f (P, cs) = some (f * lineVal P (entry cs k)) := by
  unfold ell
  rw [List.getElem?_eq_getElem hk, Option.map_some]
  simp only [Fp12.mulBy014_eq, Fp2.mulByFq_eq, entry, List.getD_eq_getElem?_getD, List.getElem?_eq_getElem hk,
    Option.getD_some, lineVal]

/-- The product of the lines of all pairs. -/
def linesVal (pcs : List (G1 K × List (Coeff K))) (k : ℕ) : Fp12 K :=
  (pcs.map fun pc => lineVal pc.1 (entry pc.2 k)).prod

theorem ellAll_eq {k : ℕ} : ∀ (pcs : List (G1 K × List (Coeff K))) (f : Fp12 K),
    (∀ pc ∈ pcs, k < pc.2.length) → ellAll k pcs f = some (f * linesVal pcs k)
  | [], f, _ => by simp [ellAll, linesVal]
  | (P, cs) :: pcs, f, h => by
    rw [ellAll, ell_eq f P cs (h _ (List.mem_cons_self ..)), Option.bind_some,
      ellAll_eq pcs _ fun pc hpc => h pc (List.mem_cons_of_mem _ hpc)]
    simp only [linesVal, List.map_cons, List.prod_cons, mul_assoc]

theorem millerLoopFrom_eq (pcs : List (G1 K × List (Coeff K))) : ∀ (i k : ℕ) (f : Fp12 K),
    (∀ pc ∈ pcs, k + entries i ≤ pc.2.length) → millerLoopFrom pcs i k f = some (loopVal (linesVal pcs) i k f)
  | 0, _, _, _ => rfl
  | i + 1, k, f, h => by
    have h1 : (if i ≠ 62 then f.sqr else f) = if i ≠ 62 then f * f else f := by rw [Fp12.sqr_eq]
    simp only [millerLoopFrom, loopVal, h1]
    by_cases hb : loopBit i = true
    · have hl : ∀ pc ∈ pcs, k + (entries i + 2) ≤ pc.2.length := by simpa only [entries, if_pos hb] using h
      rw [ellAll_eq _ _ fun pc hpc => by have := hl pc hpc; omega, Option.bind_some, if_pos hb, if_pos hb,
        ellAll_eq _ _ fun pc hpc => by have := hl pc hpc; omega, Option.bind_some,
        millerLoopFrom_eq pcs i _ _ fun pc hpc => by have := hl pc hpc; omega]
    · have hl : ∀ pc ∈ pcs, k + (entries i + 1) ≤ pc.2.length := by simpa only [entries, if_neg hb] using h
      rw [ellAll_eq _ _ fun pc hpc => by have := hl pc hpc; omega, Option.bind_some, if_neg hb, if_neg hb,
        millerLoopFrom_eq pcs i _ _ fun pc hpc => by have := hl pc hpc; omega]

/-- The Miller loop of one pair before the final conjugation. -/
def millerVal (P : G1 K) (Q : G2 K) : Fp12 K := loopVal (fun k => lineVal P (entry (preCompute Q) k)) 63 0 1

theorem loopVal_prod : ∀ pcs : List (G1 K × List (Coeff K)), loopVal (linesVal pcs) 63 0 1 =
    (pcs.map fun pc => loopVal (fun k => lineVal pc.1 (entry pc.2 k)) 63 0 1).prod
  | [] => by
    rw [List.map_nil, List.prod_nil]
    exact loopVal_one 63 0
  | pc :: pcs => by
    rw [List.map_cons, List.prod_cons, ← loopVal_prod pcs, ← loopVal_mul, mul_one]
    rfl

/-- The pairing of one pair. -/
def pairVal (P : G1 K) (Q : G2 K) : Fp12 K := ((millerVal P Q) ^ p ^ 6) ^ finalExp

attribute [local irreducible] p

theorem prod_map_pow {F A : Type*} [Field F] (f : A → F) (n : ℕ) : ∀ l : List A,
    (l.map f).prod ^ n = (l.map fun a => f a ^ n).prod
  | [] => by simp
  | a :: l => by rw [List.map_cons, List.prod_cons, mul_pow, prod_map_pow f n l, List.map_cons, List.prod_cons]

theorem prod_map_perm {F A : Type*} [Field F] (f : A → F) {l l' : List A} (h : l.Perm l') :
    (l.map f).prod = (l'.map f).prod := List.Perm.prod_eq (h.map _)

variable {σ : Type}

/-- The state after `calculate`. -/
def afterYield (n : ℕ) (yield : Option (σ → σ)) (s : σ) : σ := if 20 ≤ n then (yield.getD id) s else s

theorem millerLoop_eq (pairs : List (G1 K × G2 K)) (hne : pairs ≠ []) (yield : Option (σ → σ)) (s : σ) :
    millerLoop pairs yield s =
      some ((pairs.map fun pq => millerVal pq.1 pq.2).prod ^ p ^ 6, afterYield pairs.length yield s) := by
  have hl : ∀ pc ∈ pairs.map fun pq => (pq.1, preCompute pq.2), 0 + entries 63 ≤ pc.2.length := by
    intro pc hpc
    obtain ⟨pq, _, rfl⟩ := List.mem_map.1 hpc
    show 0 + entries 63 ≤ (preCompute pq.2).length
    rw [preCompute_length, entries_63]
  have h := millerLoopFrom_eq (pairs.map fun pq => (pq.1, preCompute pq.2)) 63 0 Fp12.one hl
  have hc : ∀ f : Fp12 K, f.conjugate = f ^ p ^ 6 := Fp12.conjugate_eq
  generalize p ^ 6 = n at *
  unfold millerLoop
  simp only [afterYield]
  rw [if_neg (by simpa using hne), h, Option.map_some, hc, Fp12.one_eq, loopVal_prod, List.map_map]
  simp only [Function.comp_def, millerVal]
  cases yield <;> rfl

theorem calculate_eq (pairs : List (G1 K × G2 K)) (yield : Option (σ → σ)) (s : σ) :
    calculate pairs yield s =
      some ((pairs.map fun pq => pairVal pq.1 pq.2).prod, afterYield pairs.length yield s) := by
  unfold calculate
  by_cases h : pairs = []
  · subst h
    simp [afterYield, Fp12.one_eq]
  · rw [if_neg (by simpa using h), millerLoop_eq pairs h, Option.bind_some, finalExponentiation_eq, Option.map_some]
    refine congrArg some (Prod.ext ?_ rfl)
    show (_ ^ _) ^ _ = _
    rw [prod_map_pow, prod_map_pow]
    rfl

theorem calculate_perm {τ : Type} {l l' : List (G1 K × G2 K)} (h : l.Perm l') (y : Option (σ → σ)) (s : σ)
    (y' : Option (τ → τ)) (s' : τ) : (calculate l y s).map Prod.fst = (calculate l' y' s').map Prod.fst := by
  rw [calculate_eq, calculate_eq, Option.map_some, Option.map_some, prod_map_perm _ h]

theorem calculate_order {l : List (G1 K × G2 K)} {y : Option (σ → σ)} {s : σ} {v : Fp12 K}
    (h : (calculate l y s).map Prod.fst = some v) (hv : v ≠ 0) : v ^ q = 1 := by
  rw [calculate_eq, Option.map_some] at h
  have h1 : (l.map fun pq => pairVal pq.1 pq.2).prod = v := Option.some.inj h
  have h2 : v = (l.map fun pq => (millerVal pq.1 pq.2) ^ p ^ 6).prod ^ finalExp := by
    rw [prod_map_pow, ← h1]
    rfl
  rw [h2] at hv ⊢
  refine finalExp_order fun h0 => hv ?_
  rw [h0]
  exact zero_pow (by decide +kernel)

end Bls.Pairing
