import Verif.Proof.Map1
import Verif.Spec.Exceptions
import Verif.Proof.Subgroup

/-! The inputs of the first map to curve that reach the kernel of the isogeny. -/

namespace Bls
open Rfc

namespace Exc

/-- Certificate for the solutions `w = 11 e²` of `w² + b w + c = 0`: the discriminant is not a square, or a root of it
and for each solution either nothing (`w/11` is not a square) or a root `e`. -/
inductive Cert
  | none
  | some (s : ℕ) (e1 e2 : Option ℕ)

def nonsq (n : ℕ) : Bool := !Nat.beq (powMod p n ((p - 1) / 2) % p) 1 && !Nat.beq (n % p) 0

def checkRoot (u : ℕ) : Option ℕ → Bool
  | .none => nonsq (11 * u)
  | .some e => Nat.beq (11 * e * e % p) (u % p) && Nat.ble e p && exceptions1.contains e && exceptions1.contains (p - e)

def inv2 : ℕ := (p + 1) / 2

def check (b c : ℕ) : Cert → Bool
  | .none => nonsq (b * b + 4 * (p - c))
  | .some s e1 e2 => Nat.beq (s * s % p) ((b * b + 4 * (p - c)) % p) &&
      checkRoot ((s + (p - b)) * inv2 % p) e1 && checkRoot ((p - s + (p - b)) * inv2 % p) e2

section
variable {K : Type} [Field K] [FpOps K] [LawfulFp K] [DecidableEq K]

theorem nonsq_sound {n : ℕ} (h : nonsq n = true) : ¬ IsSquare (n : K) := by
  rw [nonsq, Bool.and_eq_true, Bool.not_eq_true', Bool.not_eq_true'] at h
  exact nat_nonsquare h.1 (natCast_ne_zero h.2)

theorem beq_cast {a b : ℕ} (h : Nat.beq (a % p) (b % p) = true) : (a : K) = (b : K) :=
  IsFp.natCast_eq_iff.2 (Nat.eq_of_beq_eq_true h)

attribute [local irreducible] p exceptions1

theorem checkRoot_sound {u : ℕ} {o : Option ℕ} (h : checkRoot u o = true) {e : K} (hu : 11 * e ^ 2 = (u : K)) :
    ∃ n ∈ exceptions1, e = (n : K) := by
  rcases o with _ | r
  · refine absurd ?_ (nonsq_sound (K := K) h)
    refine ⟨11 * e, ?_⟩
    rw [Nat.cast_mul, ← hu, Nat.cast_ofNat]; ring
  · rw [checkRoot, Bool.and_eq_true, Bool.and_eq_true, Bool.and_eq_true, List.contains_iff_mem, List.contains_iff_mem] at h
    obtain ⟨⟨⟨h1, h2⟩, h3⟩, h4⟩ := h
    have h1 := beq_cast (K := K) h1
    rw [Nat.cast_mul, Nat.cast_mul, Nat.cast_ofNat, ← hu] at h1
    have h11 : (11 : K) ≠ 0 := (swuGood1 K).z0
    have h5 : (e - r) * (e + r) = 0 := by
      apply mul_left_cancel₀ h11
      linear_combination -h1
    rcases mul_eq_zero.1 h5 with h6 | h6
    · exact ⟨r, h3, sub_eq_zero.1 h6⟩
    · refine ⟨p - r, h4, ?_⟩
      rw [Nat.cast_sub (Nat.le_of_ble_eq_true h2), (IsFp.natCast_eq_zero_iff (K := K) (a := p)).2 (Nat.mod_self p), zero_sub]
      exact eq_neg_of_add_eq_zero_left h6

theorem inv2_eq : (inv2 : K) * 2 = 1 := by
  have : ((inv2 * 2 : ℕ) : K) = ((1 : ℕ) : K) := IsFp.natCast_eq_iff.2 (by unfold inv2 p; decide +kernel)
  rwa [Nat.cast_mul, Nat.cast_ofNat, Nat.cast_one] at this

theorem cast_p : ((p : ℕ) : K) = 0 := IsFp.natCast_eq_zero_iff.2 (Nat.mod_self p)

theorem cast_neg {n : ℕ} (h : n ≤ p) : ((p - n : ℕ) : K) = -(n : K) := by
  rw [Nat.cast_sub h, cast_p, zero_sub]

theorem cast_mod (n : ℕ) : ((n % p : ℕ) : K) = (n : K) := IsFp.natCast_eq_iff.2 (Nat.mod_mod _ _)

theorem check_sound {b c : ℕ} {t : Cert} (h : check b c t = true) (hb : b ≤ p) (hc : c ≤ p)
    (hs : ∀ s e1 e2, t = .some s e1 e2 → s ≤ p) {e : K}
    (hw : (11 * e ^ 2) ^ 2 + b * (11 * e ^ 2) + c = 0) : ∃ n ∈ exceptions1, e = (n : K) := by
  have hD : ((b * b + 4 * (p - c) : ℕ) : K) = (2 * (11 * e ^ 2) + b) * (2 * (11 * e ^ 2) + b) := by
    rw [Nat.cast_add, Nat.cast_mul, Nat.cast_mul, cast_neg hc, Nat.cast_ofNat]
    linear_combination -4 * hw
  rcases t with _ | ⟨s, e1, e2⟩
  · exact absurd ⟨_, hD⟩ (nonsq_sound (K := K) h)
  · rw [check, Bool.and_eq_true, Bool.and_eq_true] at h
    obtain ⟨⟨h1, h2⟩, h3⟩ := h
    have hsp := hs s e1 e2 rfl
    have h1 := beq_cast (K := K) h1
    rw [hD, Nat.cast_mul] at h1
    have h5 : (s - (2 * (11 * e ^ 2) + b)) * (s + (2 * (11 * e ^ 2) + b)) = (0 : K) := by linear_combination h1
    have h2i := inv2_eq (K := K)
    rcases mul_eq_zero.1 h5 with h6 | h6
    · refine checkRoot_sound h2 ?_
      rw [cast_mod, Nat.cast_mul, Nat.cast_add, cast_neg hb]
      linear_combination (-inv2 : K) * h6 - 11 * e ^ 2 * h2i
    · refine checkRoot_sound h3 ?_
      rw [cast_mod, Nat.cast_mul, Nat.cast_add, cast_neg hb, cast_neg hsp]
      linear_combination (inv2 : K) * h6 - 11 * e ^ 2 * h2i

end

/-- For each abscissa `r` of the kernel: the constant of the quadratic for the first candidate, its certificate, the
linear and constant coefficient of the quadratic for the second candidate, its certificate. -/
def table : List (ℕ × ℕ × Cert × ℕ × Cert) := [
    (162902306530757011687648381458039960905879760854007434532151803806422383239905014872915974221245198317567396330740, 1670962458955106616963330080326405093668378128463561560663583535998874030007055973431690213028722640853968992567983, .some 194508073044160108928988931095690904165527934738514687022216646753479768650169371764334397030607794006818636943178 (some 2996364799790106798135996267804732426571918304256045973420659328602593967274666773429484758551777178205846782232816) (some 1562001338336877267717400325455189014780228097985596277514975439801739125527323838522116502949589758528550231396418), 1748545097466775053522362390716605111418336778947200118852515342088083001911741462955594058672532494034856655593982, .some 1863233417618195172864461443412071844704167170311800977971365880220645747177088308172111332608465559609761494971926 (some 1282200428960417699336277706457103041857880658103225676682217209856122071106589819601289643542687514346532690166789) (some 1575176923998869412532776039298450771881116864589013101651068123638915113652607670548729091460580079688736254283722)),
    (2077344747421819657086473418925078480898358265217674456436079722467637536216749299440611432676849905020722484031356, 1695916385094928240202209985231485519481662861660619550260412526321690051539763427115675534948197054056195660574399, .some 3636746459162914853845204506260419594599758958207047756495508650249161999218932216517144512897599093015074335000902 (some 3140998864168905305116999238341094082253376923310959579796412851201896533814081908310962784672298826054629918684568) (some 2271327980655849924096472376460625801249900033784935309133299460372536622850473967367201051801213471874555086217960), 158239613049929297863218320605354497885314485815662304964681331795910877411388421732491844577727299635668334077473, .some 1409086341237358202739608069967655356121789680453825847296545171005394313550211393746626106366724776001856380368543 (some 1627078508083490254318224556330168382612583685493102987037331932100530949593938800142015413725573270803374334213417) (some 2525265804490924914358547053632454365279379073546994372794255712543217504207818408931004631698420279628214454678319)),
    (2512099095366387796245759085729510986367032014959769672734622752070562589059815523018960565849753051338812932816014, 1551342435858534729784927227788852219097370107944669290607801596324084743219314802216802331053307165227015530585080, .some 1269061973480957582599469313558454366786912822407981383241807670679792112175833857700568220953738697117964935548625 (none) (none), 33035924775680816823218488157802283584682970476296012403001548082864600983993889122616275915880518004756935508784, .some 3966415635275456473985481363490243249471363531935616788725442119042253597628408022944648701745656933922046562722976 (none) (none)),
    (3086251397349454634226049654186198282625136597600255705376316455943570106637401671127489553534256598630507009270951, 2232793552207650421538232829415234954224175235654618928774796876549351572320607949485985491116882487686157549038357, .none, 791860854299765789776412294193093715150641274118027734758567353846960810050952707590357227230378317364080224950263, .none),
    (3447232547282837364692125741875673748077489238391001187748258124039623697289612052402753422028380156396811587142615, 201108191058495518144571013292757616839939772477297675002910701750083517718909644806304325250888004212813140421495, .none, 59851081916248386827690969303229229617380000972363251255255481959939792995107069675012922940560481461835106934085, .none)]

/-- Square roots of `g` at the kernel. -/
def roots : List ℕ := [
    2262979898295481953513428735669950113377445280885669609907941863662622694289247344372772523511329531685839231047165,
    864739370173431256541490135500561859725318822539686417753397107695043273625955431515886911526288167244999522605888,
    3869440428665828672126986942449931708292407950503965278303393917520883965908367251300173570528123700077316614991402,
    2147997396439407644569843619646198613554091926907870788042198547268693799282413289445532483694958528157608783239273,
    313824055748912360687357789852223607698111926009336808525043819844522041384207509517788691513196831980299069347180]

def Cert.ok : Cert → Bool
  | .none => true
  | .some s _ _ => Nat.ble s p

def checkRow (row : ℕ × ℕ × Cert × ℕ × Cert) : Bool :=
  match row with
  | (r, c1, t1, b2, t2) =>
    Nat.beq (((r + (p - mBA1)) * c1 + mBA1) % p) (0 % p) && check 1 c1 t1 && Nat.ble c1 p && t1.ok &&
    (Nat.beq (mBA1 * b2 % p) ((mBA1 + (p - r)) % p) && check b2 b2 t2 && Nat.ble b2 p && t2.ok) &&
    !Nat.beq (r % p) (zInv1 * mBA1 % p) && !Nat.beq ((r + (p - mBA1)) % p) 0

theorem rows_ok : table.all checkRow = true := by decide +kernel
theorem rows_cover : table.map (fun row => row.1) = kernel1 := by decide +kernel

section
variable {K : Type} [Field K] [FpOps K] [LawfulFp K] [DecidableEq K]
attribute [local irreducible] p exceptions1 kernel1 mBA1 zInv1 check table swuA1 swuB1

theorem Cert.ok_le {t : Cert} (h : t.ok = true) : ∀ s e1 e2, t = .some s e1 e2 → s ≤ p := by
  rintro s e1 e2 rfl
  exact Nat.le_of_ble_eq_true h

theorem mBA1_le : mBA1 ≤ p := by unfold mBA1 p; decide +kernel
theorem one_le_p : 1 ≤ p := p_prime.one_lt.le

/-- The candidates in terms of `w`. -/
theorem candidates (e : K) (x : K) (h : x = (G1.swuMapG1 e).1) :
    x = ((zInv1 * mBA1 : ℕ) : K) ∨
    ((11 * e ^ 2 + (11 * e ^ 2) ^ 2 ≠ 0) ∧
      ((x - mBA1) * (11 * e ^ 2 + (11 * e ^ 2) ^ 2) = (mBA1 : K) ∨
        x * (11 * e ^ 2 + 1) = mBA1 * (11 * e ^ 2 + (11 * e ^ 2) ^ 2 + 1))) := by
  have hs := sswu_x (swuGood1 K) (swu1 e)
  rw [← h] at hs
  have hexc := (swuGood1 K).exceptional
  rw [swuX1, zInv1_eq, mBA1_eq] at hs
  rw [zInv1_eq, mBA1_eq] at hexc
  have hw : e * e * 11 = 11 * e ^ 2 := by ring
  rw [hw, ← sq] at hs
  generalize 11 * e ^ 2 = w at hs
  by_cases h0 : w + w ^ 2 = 0
  · rw [if_pos h0, ← Nat.cast_mul] at hs
    rw [← Nat.cast_mul] at hexc
    rcases hs with hs | hs
    · exact Or.inl hs.2
    · exact absurd hexc hs.1
  · right
    refine ⟨h0, ?_⟩
    rw [if_neg h0] at hs
    have hi : (w + w ^ 2)⁻¹ * (w + w ^ 2) = 1 := inv_mul_cancel₀ h0
    rcases hs with ⟨-, hs⟩ | ⟨-, hs⟩
    · left
      rw [hs]
      linear_combination (mBA1 : K) * hi
    · right
      rw [hs]
      linear_combination (mBA1 : K) * hi

theorem exc_of_kernel {e : K} (h : ker1 (G1.swuMapG1 e).1 = 0) : ∃ n ∈ exceptions1, e = (n : K) := by
  obtain ⟨r, hr, hx⟩ := ker1_zero h
  rw [← rows_cover, List.mem_map] at hr
  obtain ⟨⟨r', c1, t1, b2, t2⟩, hmem, rfl⟩ := hr
  have hrow := List.all_eq_true.1 rows_ok _ hmem
  simp only [checkRow, Bool.and_eq_true, Bool.not_eq_true'] at hrow
  obtain ⟨⟨⟨⟨⟨⟨a1, a2⟩, a3⟩, a4⟩, ⟨⟨b1, b2'⟩, b3⟩, b4⟩, d1⟩, d2⟩ := hrow
  simp only at hx
  have hm0 : (mBA1 : K) ≠ 0 := by
    intro h0
    have := (swuGood1 K).minusBOverA
    rw [mBA1_eq, h0, zero_mul, eq_comm, neg_eq_zero] at this
    exact natCast_ne_zero (K := K) (n := swuB1) (by unfold swuB1 p; decide +kernel) this
  have ha := beq_cast (K := K) a1
  rw [Nat.cast_zero, Nat.cast_add, Nat.cast_mul, Nat.cast_add, cast_neg mBA1_le] at ha
  have hrp : r' ≤ p := by
    have : ∀ r ∈ kernel1, r ≤ p := by unfold kernel1 p; decide +kernel
    exact this _ (rows_cover ▸ List.mem_map_of_mem (f := fun row => row.1) hmem)
  have hb := beq_cast (K := K) b1
  rw [Nat.cast_mul, Nat.cast_add, cast_neg hrp] at hb
  rcases candidates e _ rfl with h1 | ⟨-, h1 | h1⟩
  · rw [hx, IsFp.natCast_eq_iff] at h1
    rw [h1, Nat.beq_refl] at d1
    exact absurd d1 (by decide)
  · refine check_sound a2 one_le_p (Nat.le_of_ble_eq_true a3) (Cert.ok_le a4) ?_
    rw [hx] at h1
    have hne : ((r' : K) - mBA1) ≠ 0 := by
      intro h0; rw [h0, zero_mul] at h1; exact hm0 h1.symm
    apply mul_left_cancel₀ hne
    rw [Nat.cast_one]
    linear_combination h1 + ha
  · refine check_sound b2' (Nat.le_of_ble_eq_true b3) (Nat.le_of_ble_eq_true b3) (Cert.ok_le b4) ?_
    rw [hx] at h1
    apply mul_left_cancel₀ hm0
    linear_combination -h1 + (11 * e ^ 2 + 1) * hb

theorem ker1_of_mem {r : ℕ} (h : r ∈ kernel1) : ker1 (r : K) = 0 := by
  have lin : ∀ s : ℕ, s ≤ p → PolyList.ev (N := NatP) (NatP.cast K) (r : K) [Nat.sub p s, (1 : ℕ)] = r - s := by
    intro s hs
    simp only [PolyList.ev]
    change ((p - s : ℕ) : K) + r * (((1 : ℕ) : K) + r * 0) = _
    rw [cast_neg hs, Nat.cast_one]; ring
  have hall : ∀ s ∈ kernel1, s ≤ p := by unfold kernel1 p; decide +kernel
  have gen : ∀ l : List ℕ, (∀ s ∈ l, s ≤ p) → r ∈ l →
      PolyList.ev (NatP.cast K) (r : K)
        (l.foldr (fun s acc => PolyList.pmul (N := NatP) [Nat.sub p s, (1 : ℕ)] acc) [(1 : ℕ)]) = 0 := by
    intro l hl hr
    induction l with
    | nil => exact absurd hr List.not_mem_nil
    | cons s l ih =>
      rw [List.foldr_cons, PolyList.ev_pmul, lin s (hl s List.mem_cons_self)]
      rcases List.mem_cons.1 hr with rfl | hr
      · rw [sub_self, zero_mul]
      · rw [ih (fun t ht => hl t (List.mem_cons_of_mem _ ht)) hr, mul_zero]
  exact gen kernel1 hall h

end

/-- The first candidate for input `n`, as a residue. -/
def x1N (n : ℕ) : ℕ :=
  let w := n * n * 11 % p
  (powMod p (w + w * w) (p - 2) + 1) * mBA1 % p

def cubicAt (x : ℕ) : ℕ := (x ^ 3 + swuA1 * x + swuB1) % p

def checkExc (n : ℕ) : Bool :=
  let w := n * n * 11 % p
  let x := x1N n
  !Nat.beq ((w + w * w) % p) 0 &&
    ((kernel1.contains x && roots.any fun s => Nat.beq (s * s % p) (cubicAt x)) ||
      (kernel1.contains (w * x % p) && nonsq (cubicAt x)))

theorem exc_ok : exceptions1.all checkExc = true := by decide +kernel

section
variable {K : Type} [Field K] [FpOps K] [LawfulFp K] [DecidableEq K]
attribute [local irreducible] p exceptions1 kernel1 mBA1 zInv1 check table swuA1 swuB1 roots powMod

theorem x1N_eq (n : ℕ) (h : (((n * n * 11 % p) + (n * n * 11 % p) * (n * n * 11 % p) : ℕ) : K) ≠ 0) :
    swuX1 (G1.swuParams : SwuParams K) ((n : K) * n * 11) = (x1N n : K) := by
  have hw : ((n * n * 11 % p : ℕ) : K) = (n : K) * n * 11 := by
    rw [cast_mod, Nat.cast_mul, Nat.cast_mul, Nat.cast_ofNat]
  rw [x1N, cast_mod, Nat.cast_mul, Nat.cast_add, Nat.cast_one, NatP.powMod_inv]
  rw [Nat.cast_add, Nat.cast_mul, hw] at h ⊢
  rw [swuX1, if_neg h, mBA1_eq]

theorem cubicAt_cast (x : ℕ) : (cubicAt x : K) = cubic (swuA1 : K) (swuB1 : K) (x : K) := by
  rw [cubicAt, cast_mod, cubic1_natCast]

theorem kernel_of_exc {n : ℕ} (h : n ∈ exceptions1) : ker1 (G1.swuMapG1 (n : K)).1 = 0 := by
  have hc := List.all_eq_true.1 exc_ok _ h
  simp only [checkExc, Bool.and_eq_true, Bool.or_eq_true, Bool.not_eq_true', List.contains_iff_mem] at hc
  obtain ⟨h0, hc⟩ := hc
  have hx := x1N_eq (K := K) n (natCast_ne_zero h0)
  have hs := sswu_x (swuGood1 K) (swu1 (n : K))
  rw [hx, ← cubicAt_cast] at hs
  rcases hc with ⟨hm, hq⟩ | ⟨hm, hq⟩
  · obtain ⟨s, -, hs2⟩ := List.any_eq_true.1 hq
    have hsq : IsSquare (cubicAt (x1N n) : K) := by
      refine ⟨(s : K), ?_⟩
      rw [← Nat.eq_of_beq_eq_true hs2, cast_mod, Nat.cast_mul]
    rcases hs with ⟨-, hs⟩ | ⟨hn, -⟩
    · rw [hs]; exact ker1_of_mem hm
    · exact absurd hsq hn
  · rcases hs with ⟨hn, -⟩ | ⟨-, hs⟩
    · exact absurd hn (nonsq_sound hq)
    · have : (11 * (n : K) ^ 2 * (x1N n : K)) = ((n * n * 11 % p * x1N n % p : ℕ) : K) := by
        rw [cast_mod, Nat.cast_mul, cast_mod, Nat.cast_mul, Nat.cast_mul, Nat.cast_ofNat]; ring
      rw [hs, this]; exact ker1_of_mem hm

/-- The kernel is reached exactly for the listed inputs. -/
theorem kernel_iff (e : K) : ker1 (G1.swuMapG1 e).1 = 0 ↔ ∃ n ∈ exceptions1, e = (n : K) :=
  ⟨exc_of_kernel, fun ⟨_, h, e⟩ => e ▸ kernel_of_exc h⟩

open LawfulOps

theorem bad_isZero : (⟨0, 0, 1⟩ : Jac K).isZero = false := by
  rw [Jac.isZero, Bool.eq_false_iff, Ne, isZero_iff]; exact one_ne_zero

theorem o_isZero : (⟨0, 0, 0⟩ : Jac K).isZero = true := by
  rw [Jac.isZero, isZero_iff]

theorem dbl_bad : (⟨0, 0, 1⟩ : Jac K).dbl = ⟨0, 0, 0⟩ := by
  rw [Jac.dbl, bad_isZero]
  simp only [ops_eq]
  norm_num

theorem dbl_zero : (⟨0, 0, 0⟩ : Jac K).dbl = ⟨0, 0, 0⟩ := by
  rw [Jac.dbl, o_isZero, if_pos rfl]

theorem loop_bad (s : List UInt64) : ∀ n i, Jac.scaleLoop s n i (⟨0, 0, 1⟩ : Jac K) ⟨0, 0, 0⟩ = ⟨0, 0, 1⟩
  | 0, _ => rfl
  | n + 1, i => by
    have h : (⟨0, 0, 1⟩ : Jac K).add ⟨0, 0, 0⟩ = ⟨0, 0, 1⟩ := by
      rw [Jac.add, bad_isZero, o_isZero, if_neg (by decide), if_pos rfl]
    rw [Jac.scaleLoop, h, ite_self, dbl_zero]
    exact loop_bad s n (i + 1)

theorem clear_bad : G1.clearCofactor (⟨0, 0, 1⟩ : G1 K) = ⟨0, 0, 1⟩ := by
  have hl : Scalar.bitLength G1.cofactorEFF = 63 + 1 := by decide +kernel
  have hb : Scalar.bit G1.cofactorEFF 0 = true := by decide +kernel
  have h : (⟨0, 0, 0⟩ : Jac K).add ⟨0, 0, 1⟩ = ⟨0, 0, 1⟩ := by rw [Jac.add, o_isZero, if_pos rfl]
  rw [G1.clearCofactor, Jac.scale, hl, Jac.scaleLoop, hb, if_pos rfl, zero_eq, h, dbl_bad]
  exact loop_bad _ _ _

/-- What `g1::mapToCurve` returns when a denominator vanishes. -/
theorem map_bad {e : K} (h : ker1 (G1.swuMapG1 e).1 = 0) : G1.mapToCurve e = ⟨0, 0, 1⟩ := by
  have e1 : (G1.isogenyMapG1 (G1.swuMapG1 e).1 (G1.swuMapG1 e).2).1 = 0 := by
    change Ops.mul _ (Ops.inv (G1.isoPoly G1.isoW1 _)) = _
    rw [isoPoly1_xDen, xDen1_val, h, mul_eq, inv_eq, zero_pow (by decide), inv_zero, mul_zero]
  have e2 : (G1.isogenyMapG1 (G1.swuMapG1 e).1 (G1.swuMapG1 e).2).2 = 0 := by
    change Ops.mul (Ops.mul _ (Ops.inv (G1.isoPoly G1.isoW3 _))) _ = _
    rw [isoPoly1_yDen, yDen1_val, h, mul_eq, mul_eq, inv_eq, zero_pow (by decide), inv_zero, mul_zero, zero_mul]
  rw [G1.mapToCurve, one_eq, e1, e2]
  exact clear_bad

theorem bad_offCurve : (⟨0, 0, 1⟩ : G1 K).isOnCurve FpC.B = false := by
  rw [Bool.eq_false_iff]
  intro h
  obtain ⟨P, hP⟩ := G1.onCurve_iff.1 h
  rcases P with _ | ⟨x, y, hn⟩
  · exact one_ne_zero (α := K) hP
  · obtain ⟨-, hx, hy⟩ := hP
    have hx : (0 : K) = x * 1 ^ 2 := hx
    have hy : (0 : K) = y * 1 ^ 3 := hy
    rw [one_pow, mul_one] at hx hy
    have := equation_iff.1 hn.1
    rw [← hx, ← hy] at this
    have h4 : (4 : K) = 0 := by linear_combination -this
    exact (goodCurve1 K).const h4

end

end Exc

end Bls
