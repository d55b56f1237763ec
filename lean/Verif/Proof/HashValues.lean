import Verif.Proof.HashEval
import Verif.Model.GroupCodec

/-! Some values of `fromMessage`, by kernel evaluation on residues. -/

namespace Bls.Sig

set_option maxRecDepth 100000

/-- The coordinates of a point on residues. -/
def nats (a : G2 NatP) : List ℕ := [a.x.c0, a.x.c1, a.y.c0, a.y.c1, a.z.c0, a.z.c1]

/-- The generator as hashed by `pop_prove`. -/
def genLE : List UInt8 := [187, 198, 34, 219, 10, 240, 58, 251, 239, 26, 122, 249, 63, 232, 85, 108, 88, 172, 27, 23, 63, 58, 78, 161,
    5, 185, 116, 151, 79, 140, 104, 195, 15, 172, 169, 79, 140, 99, 149, 38, 148, 215, 151, 49, 167, 211, 241, 23,
    225, 231, 197, 70, 41, 35, 170, 12, 228, 138, 136, 162, 68, 199, 60, 208, 237, 179, 4, 44, 203, 24, 219, 0,
    246, 10, 208, 213, 149, 224, 245, 252, 228, 138, 29, 116, 237, 48, 158, 160, 241, 160, 170, 227, 129, 244,
    179, 8]

/-- The compressed generator. -/
def genBE : List UInt8 := [151, 241, 211, 167, 49, 151, 215, 148, 38, 149, 99, 140, 79, 169, 172, 15, 195, 104, 140, 79, 151, 116, 185,
    5, 161, 78, 58, 63, 23, 27, 172, 88, 108, 85, 232, 63, 249, 122, 26, 239, 251, 58, 240, 10, 219, 34, 198, 187]

/-- The hash of `abc`. -/
theorem hash_abc : (fromMessage [97, 98, 99] ciphersuiteId : Option (G2 NatP)).map nats = some [
    492393088315013297586445138254214643187182416090997938991666377487648914492697173026364938450145274090436177931410,
    2034333636458672292127262440072866132368662879891273662081260303496341205078594657397386900352771830021523353666152,
    235982881244348387440155921974949808742592366938339402037283081116531540564926636860206261025596236450440106551892,
    1193793464939401350208446695331022245388074867737721556650359874231641394339733326769188578443203964729847416772835,
    1592967538443296148999771870778757391396508769556530945939920456123048857136329612040226831555751411223010000627406,
    2340692418181550667920423781289220456415806574159664011996753851316355617673057306517494613121821965757649614611350] := by decide +kernel

/-- The hash of the generator as `pop_prove` computes it. -/
theorem hash_genLE : (fromMessage genLE popCiphersuiteId : Option (G2 NatP)).map nats = some [
    2904410409013624687015105831555818000172363941684480334734662388386202439313957271429479793285077668282674756359688,
    3217416277037902267001607767171018736321539580269090237637633704297158883506332072070565189056862260402407371714468,
    1414898361873872502871666219965247526004284034605210412339762888825327972741537188517210515648997398434621084235495,
    83521331128670020853245168277569042734523557143074573786376549841736252045261880540901577653874950606244483785388,
    833359586580972387438543814335598417603517247121532854048894283675970732475391942531794066228252103568921286157238,
    631775846241997462456249783310741163370994368021621726731775619617682676817540746189925250098542617760115719311949] := by decide +kernel

/-- The hash of the compressed generator. -/
theorem hash_genBE : (fromMessage genBE popCiphersuiteId : Option (G2 NatP)).map nats = some [
    41293284547439426544378946179398762455290658192293166776035367988504814637826076392543540477545350948948368052473,
    2531949532955796443636691893230675989226780662640223382945482802140837810022009315295523954475882724268717378502500,
    849552815226144352525188580254655803923652676486927176416093217636561633709624256240257869228691240601953272510141,
    2161005810603681070119553565005114953411653704207828125975191574316381861924064328249921496990931917140359004358091,
    1270678697544455009507021826109685419567084756931802750486444792132947280005333162421628978188179005578333208033390,
    2264557143260288108612216570038093915770455856062651998011387961846305316337483960276721786860854386704948993792738] := by decide +kernel

theorem keyBytes_gen : keyBytes (G1.one : G1 NatP) = genLE := by decide +kernel

theorem compressed_gen : G1.toCompressedBytesBE (G1.one : G1 NatP) = genBE := by decide +kernel

/-- The point with these coordinates. -/
def ofNats : List ℕ → G2 NatP
  | [a, b, c, d, e, f] => ⟨⟨a, b⟩, ⟨c, d⟩, ⟨e, f⟩⟩
  | _ => Jac.zero

theorem ofNats_nats (a : G2 NatP) : ofNats (nats a) = a := rfl

section
variable {N F : Type} (f : N → F) [FpOps N] [FpOps F] [FpHom f]
open OpsHom FpHom

theorem _root_.Bls.Jac.map_affine {N F : Type} (f : N → F) [Ops N] [Ops F] [OpsHom f] (a : Jac N) :
    (a.map f).affine = a.affine.map f := by
  have h1 : (Ops.isOne (f a.z)) = Ops.isOne a.z := h_isOne (f := f) _
  rw [Jac.affine, Jac.affine, Jac.map_isZero, Jac.isAffine, Jac.isAffine]
  simp only [Jac.map, h1]
  split_ifs
  · rfl
  · simp only [← h_inv, ← h_sqr, ← h_mul, h_one (f := f)]

theorem _root_.Bls.G1.map_one : (G1.one : G1 N).map f = G1.one := by
  simp only [Jac.map, G1.one]
  rw [h_const (f := f) _ (by decide +kernel), h_const (f := f) _ (by decide +kernel),
    h_const (f := f) _ (by decide +kernel)]

theorem map_keyBytes (a : G1 N) : keyBytes (a.map f) = keyBytes a := by
  have h1 : ∀ x : N, FpOps.fromMont (f x) = FpOps.fromMont x := h_fromMont (f := f)
  rw [keyBytes, keyBytes, Jac.toAffineBytes, Jac.toAffineBytes, Jac.map_isZero, Jac.map_affine]
  simp only [Jac.map, h1]

theorem map_lexLargest (x : N) : FpC.lexLargest (f x) = FpC.lexLargest x := by
  rw [FpC.lexLargest, h_fromMont (f := f)]; rfl

theorem map_toBytesBE (x : N) : FpC.toBytesBE (f x) = FpC.toBytesBE x := by
  rw [FpC.toBytesBE, h_fromMont (f := f)]; rfl

theorem map_toCompressedBytesBE (a : G1 N) : G1.toCompressedBytesBE (a.map f) = G1.toCompressedBytesBE a := by
  rw [G1.toCompressedBytesBE, G1.toCompressedBytesBE, Jac.map_affine f]
  have hx : (a.affine.map f).x = f a.affine.x := rfl
  have hy : (a.affine.map f).y = f a.affine.y := rfl
  rw [hx, hy, h_isZero (f := f), h_isZero (f := f), map_toBytesBE, map_lexLargest]

end

section
variable (K : Type) [Field K] [FpOps K] [LawfulFp K]

/-- A value on residues is a value of the field. -/
theorem hash_transfer {m d : List UInt8} {v : List ℕ} (h : (fromMessage m d : Option (G2 NatP)).map nats = some v) :
    (fromMessage m d : Option (G2 K)) = some ((ofNats v).map (Fp2.map (NatP.cast K))) := by
  obtain ⟨a, ha, hv⟩ := Option.map_eq_some_iff.1 h
  rw [map_fromMessage (NatP.cast K), ha, ← hv]
  rfl

theorem hash_abc_ne : ∃ e : G2 K, fromMessage [97, 98, 99] ciphersuiteId = some e ∧ e.isZero = false := by
  refine ⟨_, hash_transfer K hash_abc, ?_⟩
  rw [Jac.map_isZero]
  decide +kernel

theorem hash_gen_differ : ∃ e e' : G2 K, fromMessage (keyBytes (G1.one : G1 K)) popCiphersuiteId = some e ∧
    fromMessage (G1.toCompressedBytesBE (G1.one : G1 K)) popCiphersuiteId = some e' ∧ e.equal e' = false := by
  have h1 := hash_transfer K hash_genLE
  have h2 := hash_transfer K hash_genBE
  rw [← keyBytes_gen, ← map_keyBytes (NatP.cast K), G1.map_one] at h1
  rw [← compressed_gen, ← map_toCompressedBytesBE (NatP.cast K), G1.map_one] at h2
  refine ⟨_, _, h1, h2, ?_⟩
  rw [Jac.map_equal]
  decide +kernel

end

end Bls.Sig
