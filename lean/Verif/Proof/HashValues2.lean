import Verif.Proof.HashValues
import Verif.Proof.Derivation

/-! Two hashes for the example of C70, by kernel evaluation on residues. -/

namespace Bls.Sig

set_option maxRecDepth 100000

/-- The letter `a` and the generator. -/
def aug1 : List UInt8 := [97, 23, 241, 211, 167, 49, 151, 215, 148, 38, 149, 99, 140, 79, 169, 172, 15, 195, 104, 140, 79, 151, 116, 185, 5,
    161, 78, 58, 63, 23, 27, 172, 88, 108, 85, 232, 63, 249, 122, 26, 239, 251, 58, 240, 10, 219, 34, 198, 187, 8,
    179, 244, 129, 227, 170, 160, 241, 160, 158, 48, 237, 116, 29, 138, 228, 252, 245, 224, 149, 213, 208, 10, 246, 0,
    219, 24, 203, 44, 4, 179, 237, 208, 60, 199, 68, 162, 136, 138, 228, 12, 170, 35, 41, 70, 197, 231, 225]

/-- The letter `a` and twice the generator. -/
def aug2 : List UInt8 := [97, 5, 114, 203, 234, 144, 77, 103, 70, 136, 8, 200, 235, 80, 169, 69, 12, 151, 33, 219, 48, 145, 40, 1, 37, 67,
    144, 45, 10, 195, 88, 166, 42, 226, 143, 117, 187, 143, 28, 124, 66, 195, 154, 140, 85, 41, 191, 15, 78, 22, 106,
    157, 140, 171, 198, 115, 163, 34, 253, 166, 115, 119, 157, 142, 56, 34, 186, 62, 203, 134, 112, 228, 97, 247, 59,
    185, 2, 29, 95, 215, 106, 76, 86, 217, 212, 205, 22, 189, 27, 186, 134, 136, 25, 121, 116, 157, 40]

theorem map_affineBytes {N F : Type} (f : N → F) [FpOps N] [FpOps F] [FpHom f] (a : G1 N) :
    (a.map f).toAffineBytes 48 FpC.toBytesBE = a.toAffineBytes 48 FpC.toBytesBE := by
  rw [Jac.toAffineBytes, Jac.toAffineBytes, Jac.map_isZero, Jac.map_affine]
  simp only [Jac.map, map_toBytesBE]

/-- The key 3 minus the key 1. -/
def rogue31 (K : Type) [FpOps K] : G1 K := (Keys.publicKey [3, 0, 0, 0] : G1 K).subtract (Keys.publicKey [1, 0, 0, 0])

theorem aug_bytes (K : Type) [Field K] [FpOps K] [LawfulFp K] :
    97 :: (Keys.publicKey [1, 0, 0, 0] : G1 K).toAffineBytes 48 FpC.toBytesBE = aug1 ∧
    97 :: (rogue31 K).toAffineBytes 48 FpC.toBytesBE = aug2 ∧ (Keys.publicKey [1, 0, 0, 0] : G1 K).isZero = false ∧
    (rogue31 K).isZero = false := by
  rw [rogue31, Keys.map_publicKey (NatP.cast K) [1, 0, 0, 0], Keys.map_publicKey (NatP.cast K) [3, 0, 0, 0], ← Jac.map_subtract,
    map_affineBytes, map_affineBytes, Jac.map_isZero, Jac.map_isZero]
  decide +kernel

theorem hash_aug1 : (fromMessage aug1 ciphersuiteId : Option (G2 NatP)).map nats = some [
    3065293758802373925959862628671628522770703286038307988223219528889798339970555008838421660413953749463613828899776,
    41594620450461718233721430405353433333877765203000280512715748521187624565230974401376261778640548509047243041896,
    1137365467301326631813305787517786469776887498666917545813464872984879520857244293545453815398207038029855333180483,
    2707374944224447744410399809560555596152240068438186204312590649991166761055172712657225471510384799344623968389058,
    2161906060786963215461975913763969064661760618643164918519376636443499253629074426461117173418606372552928644436080,
    133899628284058797031726901704596997966763285490211143464831077680405100845467097036609335110686902015710551473887] := by decide +kernel

theorem hash_aug2 : (fromMessage aug2 ciphersuiteId : Option (G2 NatP)).map nats = some [
    3021987786646404311534300953302523121559438968711800541678581612121439418109953662831318294084149175080969773256147,
    1325608018582462352588929942259810548958442356207981476019105545269193209788547606505001740073055092028144671626809,
    441636973005837128882489725117934576680372554759268878657919455414782529695597869220141002028583763516572462467848,
    29888853832577167484923365264333984124338708545344476669348449907519111090575678140790345126402929029313652874360,
    1721349185092265955338390258899243825382668450003918783595917630186605097909042631911437466838407068019678346865523,
    3526258954373864979892474973133346681031524676671538982916873512266733888700043229277401649031489560626306504145950] := by decide +kernel

theorem hash_aug_differ (K : Type) [Field K] [FpOps K] [LawfulFp K] : ∃ e e' : G2 K, fromMessage aug1 ciphersuiteId = some e ∧
    fromMessage aug2 ciphersuiteId = some e' ∧ e.equal e' = false := by
  refine ⟨_, _, hash_transfer K hash_aug1, hash_transfer K hash_aug2, ?_⟩
  rw [Jac.map_equal]
  decide +kernel

end Bls.Sig
