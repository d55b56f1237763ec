#!/usr/bin/env python3
"""Test of the transcription, not a proof: prints a Lean file that evaluates the model on the vectors of the repository
(test/unittests.cpp, test/test_vectors.inc). Every line of the output of

    python3 /verif/validation/vectors.py > /tmp/vectors.lean
    cd /verif/lean && lake env lean /tmp/vectors.lean

should be `true` or `some true`. The field is `NatP` (residues; Proof/NatEval.lean relates it to the field of machine
words). With the argument `x86` the first signature vector is run on the model of the x86-64 instructions instead, which
takes about five minutes.
"""
import re, sys
REPO = '/repo/test/'
out = '''import Verif.Model.Signatures
import Verif.Model.Hex
import Verif.Proof.NatEval
open Bls Bls.Keys Bls.Sig
abbrev K := FpV true
def hx (s : String) : List UInt8 := 
  let cs := (if s.startsWith "0x" then s.drop 2 |>.toString else s).toList
  let v (c : Char) : UInt8 := if c.isDigit then c.toNat.toUInt8 - 48 else c.toLower.toNat.toUInt8 - 87
  let rec go : List Char → List UInt8 | a :: b :: t => (v a * 16 + v b) :: go t | _ => []
  go cs
def toHex (b : List UInt8) : String := String.join (b.map fun x => 
  let d (n:Nat) := String.singleton ("0123456789abcdef".toList.getD n '0'); d (x.toNat/16) ++ d (x.toNat%16))
set_option maxRecDepth 100000
'''
EIP = '''
def eip (seed m c : String) (i : UInt32) : Bool :=
  match secretKey (List.replicate 48 7) 10 (hx seed) with
  | some (some mk) => (skToBytes mk == hx m) && (match deriveChildSk (List.replicate 8160 7) (List.replicate 8160 9) (List.replicate 48 7) 10 mk i with
    | some (some ck) => skToBytes ck == hx c | _ => false)
  | _ => false
#eval eip "3141592653589793238462643383279502884197169399375105820974944592" "4ff5e145590ed7b71e577bb04032396d1619ff41cb4e350053ed2dce8d1efd1c" "5c62dcf9654481292aafa3348f1d1b0017bbfb44d6881d26d2b17836b38f204d" 3141592653
#eval eip "0x0099FF991111002299DD7744EE3355BBDD8844115566CC55663355668888CC00" "1ebd704b86732c3f05f30563dee6189838e73998ebc9c209ccff422adee10c4b" "1b98db8b24296038eae3f64c25d693a269ef1e4d7ae0f691c572a46cf3c0913c" 4294967295
#eval eip "0xd4e56740f876aef8c010b86a40d5f56745a118d0906a34e69aec8c0db1cb8fa3" "614d21b10c0e4996ac0608e0e7452d5720d95d20fe03c59a3321000a42432e1a" "08de7136e4afc56ae3ec03b20517d9c1232705a747f588fd17832f36ae337526" 42
#eval eip "c55257c360c07c72029aebc1b53c05ed0362ada38ead3e3e9efa3708e53495531f09a6987599d18264c1e1c92f2cf141630c7a3c4ab7c81b2f001698e7463b04" "0x0befcabff4a664461cc8f190cdd51c05621eb2837c71a1362df5b465a674ecfb" "1a1de3346883401f1e3b2281be5774080edb8e5ebe6f776b0f7af9fea942553a" 0
-- IETF
def ietf : Option (String) := do
  let sk ← skFromBytes (List.replicate 32 1) false
  let s ← sign (K := NatP) sk [3, 1, 4, 1, 5, 9]
  return toHex (G2.toCompressedBytesBE s.affine)
#eval ietf == some "96ba34fac33c7f129d602a0bc8a3d43f9abc014eceaab7359146b4b150e57b808645738f35671e9e10e0d862a30cab70074eb5831d13e6a5b162d01eebe687d0164adbd0a864370a7c222a2768d7704da254f1bf1823665bc2361f9dd8c00e99"
'''
s=open(REPO+'test_vectors.inc').read()
T={}
for name in ['tv_msg','tv_g2','tv_priv','tv_sig','tv_pub']:
    m=re.search(name+r'\[\]\s*=\s*\{(.*?)\};',s,re.S)
    T[name]=re.findall(r'"([^"]*)"',m.group(1))
u=open(REPO+'unittests.cpp').read()
out+=EIP
def mapc(fn,n):
    m=re.search(r'void '+fn+r'\(\)(.*?)\n\}\n',u,re.S).group(1)
    res=[]
    for pm in re.findall(r'pair\{\s*array<uint8_t, %d>\{(.*?)\},\s*g\d\(\{(.*?)\}\)'%n,m,re.S):
        ub=''.join('%02x'%int(t.strip(),0) for t in pm[0].split(','))
        hs=re.findall(r'"([0-9a-f]+)"',pm[1])
        res.append((ub,hs[0],hs[1]))
    return res
out+='''
def deK (s : String) : NatP := (FpC.fromBytesBE (K := NatP) (hx s)).getD (0:Nat)
def de2 (s : String) : Fp2 NatP := (Fp2.fromBytesBE (FpC.fromBytesBE (K := NatP)) (hx s)).getD ⟨(0:Nat),(0:Nat)⟩
def m1 (u x y : String) : Bool := Jac.equal (G1.mapToCurve (deK u)) ⟨deK x, deK y, (1:Nat)⟩
def m2 (u x y : String) : Bool := Jac.equal (G2.mapToCurve (de2 u)) ⟨de2 x, de2 y, Ops.one⟩
'''
for t in mapc('TestG1MapToCurve',48): out+='#eval m1 "%s" "%s" "%s"\n'%t
for t in mapc('TestG2MapToCurve',96): out+='#eval m2 "%s" "%s" "%s"\n'%t
pe=''.join(re.findall(r'"([0-9a-f]{96})"',re.search(r'void TestPairingExpected\(\)(.*?)\)\)\.value',u,re.S).group(1)))
out+='''
def de12 (s : String) : Option (Fp12 NatP) := Fp12.fromBytesBE (FpC.fromBytesBE (K := NatP)) (hx s)
def pe : Bool := match de12 "%s", Pairing.calculate (K := NatP) (Pairing.addPair [] G1.one G2.one) (none : Option (Unit → Unit)) () with
  | some e, some (r, _) => Ops.equal e r
  | _, _ => false
#eval pe
'''%pe
out+='''
def ev (msg g2 priv sig pub : String) : Option Bool := do
  let m := msg.toUTF8.toList
  let h ← fromMessage (K := NatP) m ciphersuiteId
  let sk ← skFromBytes (hx priv) false
  let s ← sign (K := NatP) sk m
  let pk : G1 NatP := publicKey sk
  let v ← verify pk m s
  let g ← G2.fromCompressedBytesBE (K := NatP) (hx g2)
  let s2 ← G2.fromCompressedBytesBE (K := NatP) (hx sig)
  let p2 ← G1.fromCompressedBytesBE (K := NatP) (hx pub)
  let bad ← verify pk (1 :: m) s
  return toHex (G2.toCompressedBytesBE h.affine) == g2 && toHex (G2.toCompressedBytesBE s.affine) == sig && toHex (G1.toCompressedBytesBE pk.affine) == pub && v && Jac.equal g h && Jac.equal s s2 && Jac.equal pk p2 && !bad
'''
for i in range(len(T['tv_msg'])):
    out+='#eval ev "%s" "%s" "%s" "%s" "%s"\n'%tuple(T[k][i] for k in ['tv_msg','tv_g2','tv_priv','tv_sig','tv_pub'])

if sys.argv[1:] == ['x86']:
    lines = out.split('\n')
    evs = [l for l in lines if l.startswith('#eval ev')]
    out = '\n'.join(l for l in lines if not l.startswith('#eval'))
    out = out.replace('NatP', '(FpV true)').replace('(0:Nat)', 'Ops.zero').replace('(1:Nat)', 'Ops.one') + evs[0]
print(out)
