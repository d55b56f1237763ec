#!/usr/bin/env python3
"""Replays the expected values of the repository's test program on the Lean model.

    python3 validation/unittests.py NatP 104 /tmp/vectors.lean
    cd lean && lake env lean -M 6000 /tmp/vectors.lean

reads test/unittests.cpp and test/test_vectors.inc as text and writes a Lean script that evaluates the model; every line of output
must be `true`, `some true`, a list or pair of `true`, or a pair of equal numbers. The first argument is the arithmetic below the
tower: `NatP` (residues, fast) or `FpV true` / `FpV false` (the x86-64 routines, instruction by instruction, slow). The second
argument is the number of entries of test_vectors.inc. These are tests of the model, not proofs.
"""
import re
s=open('/repo/test/test_vectors.inc').read()
def arr(n):
    b=s[s.index('tv_%s[] = {'%n):]; b=b[:b.index('};')]
    return re.findall(r'"([^"]*)"',b)
msg,g2v,priv,pub,sig=[arr(n) for n in ('msg','g2','priv','pub','sig')]
import sys
msg=msg[:int(sys.argv[2])]
t=open('/repo/test/unittests.cpp').read()
o=[]
o.append('''import Verif.Model.Signatures
import Verif.Proof.NatEval
import Verif.Model.GroupCodec
import Verif.Spec.Pairing
import Verif.Model.X86Ops
open Bls
abbrev N := %N%
def hexv (c : Char) : Nat := if c.isDigit then c.toNat - 48 else c.toLower.toNat - 87
def hx : List Char → List UInt8
  | a :: b :: t => UInt8.ofNat (hexv a * 16 + hexv b) :: hx t
  | _ => []
def h (s : String) : List UInt8 := hx ((if s.startsWith "0x" then (s.drop 2).toString else s).toList)
def asc (s : String) : List UInt8 := s.toUTF8.toList
def jn := List.replicate 48 (0xAA : UInt8)
def skey (seed : List UInt8) : List UInt64 := ((Keys.secretKey jn 5 seed).bind id).getD []
def child (sk : List UInt64) (i : UInt32) : List UInt64 := ((Keys.deriveChildSk (List.replicate 8160 1) (List.replicate 8160 2) jn 5 sk i).bind id).getD []
def rep (n : Nat) (b : UInt8) := List.replicate n b
def eq2 (a b : G2 N) : Bool := a.equal b
def eq1 (a b : G1 N) : Bool := a.equal b
def sgn (sk : List UInt64) (m : List UInt8) : G2 N := (Sig.sign sk m).getD Jac.zero
def pkey (sk : List UInt64) : G1 N := Keys.publicKey sk
def vf (pk : G1 N) (m : List UInt8) (s : G2 N) : Bool := Sig.verify pk m s == some true
def av (pks : List (G1 N)) (ms : List (List UInt8)) (s : G2 N) (d : Bool := false) : Bool := Sig.aggregateVerify pks ms s d == some true
def ag (l : List (G2 N)) : G2 N := Keys.aggregate l
''')
o.append('def tv : Array (String × String × String × String × String) := #[')
o.append(',\n'.join('("%s","%s","%s","%s","%s")'%x for x in zip(msg,g2v,priv,pub,sig)))
o.append(''']
def one (x : String × String × String × String × String) : List Bool :=
  let m := asc x.1
  match (Sig.fromMessage m Sig.ciphersuiteId : Option (G2 N)), Keys.skFromBytes (h x.2.2.1) false with
  | some hp, some sk =>
    let s := (hp.scale sk).affine
    let s' := sgn sk m
    let pk := pkey sk
    [G2.toCompressedBytesBE hp == h x.2.1, ((G2.fromCompressedBytesBE (h x.2.1) : Option (G2 N)).map fun t => eq2 hp.affine t) == some true,
     eq2 s s', G2.toCompressedBytesBE s == h x.2.2.2.2, ((G2.fromCompressedBytesBE (h x.2.2.2.2) : Option (G2 N)).map fun t => eq2 s.affine t) == some true,
     G1.toCompressedBytesBE pk == h x.2.2.2.1, ((G1.fromCompressedBytesBE (h x.2.2.2.1) : Option (G1 N)).map fun t => eq1 pk.affine t) == some true,
     vf pk m s]
  | _, _ => [false]
''')
o.append('#eval (tv.map one).foldl (fun (a : Nat × Nat) l => (a.1 + l.length, a.2 + (l.filter id).length)) (0, 0)')
# map to curve
def maps(name,n):
    b=t[t.index('void %s()'%name):]; b=b[:b.index('for(uint64_t i')]
    us=re.findall(r'array<uint8_t, %d>\{([^}]*)\}'%n,b)
    es=re.findall(r'hexToBytes<%d>\("([^"]*)"\)'%n,b)
    return [(u,es[2*i],es[2*i+1]) for i,u in enumerate(us)]
for u,x,y in maps('TestG1MapToCurve',48):
    o.append('#eval ((FpC.fromBytesBE [%s] : Option N).bind fun u => (FpC.fromBytesBE (h "%s") : Option N).bind fun x => (FpC.fromBytesBE (h "%s") : Option N).map fun y => eq1 (G1.mapToCurve u) ⟨x, y, Ops.one⟩)'%(u,x,y))
for u,x,y in maps('TestG2MapToCurve',96):
    o.append('#eval ((Fp2.fromBytesBE FpC.fromBytesBE [%s] : Option (Fp2 N)).bind fun u => (Fp2.fromBytesBE FpC.fromBytesBE (h "%s") : Option (Fp2 N)).bind fun x => (Fp2.fromBytesBE FpC.fromBytesBE (h "%s") : Option (Fp2 N)).map fun y => eq2 (G2.mapToCurve u) ⟨x, y, Fp2.one⟩)'%(u,x,y))
b=t[t.index('void TestsEIP2333()'):t.index('void TestUnhardenedHDKeys')]
for c in re.findall(r'TestEIP2333\((.*?)\);',b,re.S):
    q=re.findall(r'"([^"]*)"',c); i=re.findall(r'(\d+)\s*$',c.strip())[0]
    o.append('#eval let m := skey (h "%s"); (Scalar.toBytesBE m == h "%s", Scalar.toBytesBE (child m %s) == h "%s")'%(q[0],q[1],i,q[2]))
seed='[%d, 50, 6, 244, 24, 199, 1, 25, 1, 2, 3, 4, 5, 6, 7, 8, 9, 10, 11, 12, 13, 14, 15, 16, 17, 18, 19, 20, 21, 22, 23, 24, 25, 26, 27, 28, 29]'
o.append('''#eval
  let sk := skey %s
  let pk := pkey sk
  let c := (Keys.deriveChildSkUnhardened N sk 42).getD []
  let cp := (Keys.deriveChildG1Unhardened pk 42).getD pk
  let g := (Keys.deriveChildSkUnhardened N c 12142).getD []
  let gp := (Keys.deriveChildG1Unhardened cp 12142).getD pk
  let sk2 := skey %s
  let pk2 := pkey sk2
  let c2 := (Keys.deriveChildSkUnhardened N sk2 42).getD []
  let cp2 := (Keys.deriveChildG1Unhardened pk2 42).getD pk
  let ch := child sk2 42
  [eq1 (pkey c) cp, eq1 (pkey g) gp, eq1 (pkey c2) cp2, ch != c2, !eq1 (pkey ch) cp2]'''%(seed%1,seed%2))
b=t[t.index('void TestIETFVectors'):]
sg=re.search(r'sig1BasicHex = "([^"]*)"',b).group(1)
o.append('#eval let s := (sgn (((Keys.skFromBytes (rep 32 1) false)).getD []) [3,1,4,1,5,9]).affine; (G2.toCompressedBytesBE s == h "%s", ((G2.fromCompressedBytesBE (h "%s") : Option (G2 N)).map fun t => eq2 s t))'%(sg,sg))
o.append('''#eval
  let sk1 := skey (rep 32 0); let sk2 := skey (rep 32 1)
  let pk1 := pkey sk1; let pk2 := pkey sk2
  let m1 := [7,8,9]; let m2 := [10,11,12]
  let s1 := sgn sk1 m1; let s2 := sgn sk2 m2
  let m3 := [1,2,3]; let m4 := [1,2,3,4]; let m5 := [1,2]
  [vf pk1 m1 s1, vf pk2 m2 s2, av [pk1,pk2] [m1,m2] (ag [s1,s2]), av [pk1,pk1,pk2] [m3,m4,m5] (ag [sgn sk1 m3, sgn sk1 m4, sgn sk2 m5])]
#eval
  let m := [100,2,254,88,90,45,23]
  let sk1 := skey (rep 32 0x50); let sk2 := skey (rep 32 0x70)
  let pk1 := pkey sk1; let pk2 := pkey sk2
  let m1 := m ++ Jac.toAffineBytes 48 FpC.toBytesBE pk1; let m2 := m ++ Jac.toAffineBytes 48 FpC.toBytesBE pk2
  [av [pk1,pk2] [m1,m2] (ag [sgn sk1 m1, sgn sk2 m2]) true, !av [pk1,pk2] [m,m] (ag [sgn sk1 m, sgn sk2 m]) true, !eq1 pk1 pk2,
   Keys.skFromBytes (Keys.skToBytes sk1) false == some sk1, Keys.skFromBytes (Keys.skToBytes sk1) true == some sk1]
#eval
  let sk1 := skey (rep 32 2); let sk2 := skey (rep 32 3)
  let pk1 := pkey sk1; let pk2 := pkey sk2
  let m1 := [1,2,3,40]; let m2 := [5,6,70,201]; let m3 := [9,10,11,12,13]; let m4 := [15,63,244,92,0,1]
  [av [pk1,pk2,pk2,pk1,pk1,pk1] [m1,m2,m1,m3,m1,m4] (ag [ag [sgn sk1 m1, sgn sk2 m2], ag [sgn sk2 m1, sgn sk1 m3, sgn sk1 m1], sgn sk1 m4])]
#eval
  let m := [100,2,254,88,90,45,23]
  let sk1 := skey (rep 32 7); let sk2 := skey (rep 32 8)
  let pk1 := pkey sk1; let pk2 := pkey sk2
  let a := (Keys.aggregateSecretKeys [sk1,sk2]).getD []
  let ap := pk1.add pk2
  let s1 := sgn sk1 m; let s2 := sgn sk2 m
  let m2 := [200,29,54,8,9,29,155,55]
  let s3 := sgn sk2 m2
  let f := ag [ag [s1,s2], s3]
  let skF := (Keys.aggregateSecretKeys [a,sk2]).getD []
  [Keys.aggregateSecretKeys [sk2,sk1] == some a, eq1 ap (pkey a), eq2 (sgn a m) (ag [s1,s2]), vf ap m (ag [s1,s2]), !av [pk1,pk2] [m,m] (ag [s1,s2]) true,
   eq2 f (ag [s1,s2,s3]), eq2 f (ag [s1,s3,s2]), Keys.aggregateSecretKeys [sk2,sk1,sk2] == some skF, skF != a,
   eq1 (ap.add pk2) ((pk2.add pk1).add pk2), !eq1 (ap.add pk2) ap, av [ap,pk2] [m,m2] f true]
#eval
  let sk1 := skey (rep 32 6); let sk2 := skey (rep 32 7)
  let pk1 := pkey sk1; let pk2 := pkey sk2
  let m1 := [7,8,9]; let m2 := [10,11,12]
  let s1 := sgn sk1 m1; let s2 := sgn sk2 m2
  [vf pk1 m1 s1, !vf pk1 m1 s2, !vf pk1 m2 s1, !vf pk2 m1 s1, av [pk1,pk2] [m1,m2] (ag [s1,s2]),
   Sig.popVerify pk1 ((Sig.popProve sk1 : Option (G2 N)).getD Jac.zero) == some true,
   Sig.popFastAggregateVerify [pk1,pk2] m1 (ag [s1, sgn sk2 m1]) == some true]
#eval
  let seed := fun (n : UInt8) => [n,  50, 6,  244, 24,  199, 1,  25,  52,  88,  192, 19, 18, 12, 89,  6,   220, 18, 102, 58,  209, 82, 12, 62, 89, 110, 182, 9,   44, 20,  254, 22]
  let sks := [skey (seed 1), skey (seed 2), skey (seed 3)]
  let m := [1,2,3,4,5]
  let a := ag (sks.map fun s => sgn s m)
  [sks.all fun s => Sig.popVerify (pkey s) ((Sig.popProve s : Option (G2 N)).getD Jac.zero) == some true,
   Sig.popFastAggregateVerify (sks.map pkey) m a == some true, vf (Keys.aggregate (sks.map pkey)) m a,
   eq2 (sgn ((Keys.aggregateSecretKeys sks).getD []) m) a]
''')

# word level: TestMod, TestExp, TestFieldElementArithmeticCornerCases, TestInverse, TestOutOfRangeInputs, TestG1SerializationGarbage
def strs(b,name):
    c=b[b.index(name+'[] = {'):]; c=c[:c.index('};')]
    return re.findall(r'"([^"]*)"',c)
def body(name):
    b=t[t.index('void %s()'%name):]; return b[:b.index('\n}\n')]
o.append("""def raw (s : String) : Fp := Fp.ofWords (Scalar.fromBytesBE 6 (h s))
def both (f : Bool → Bool) : Bool := f true && f false""")
b=body('TestMod')
for i,e in zip(strs(b,'testVectorInput'),strs(b,'testVectorExpected')):
    o.append('#eval both fun adx => Fp.modPrime adx (Scalar.fromBytesBE 8 (h "%s")) == Fp.fromBytesBE adx false true (h "%s")'%(i,e))
b=body('TestExp')
for i,j,e in zip(strs(b,'testVectorInput'),strs(b,'testVectorInput2'),strs(b,'testVectorExpected')):
    o.append('#eval (FpC.fromBytesBE (h "%s") : Option N).bind fun b => (FpC.fromBytesBE (h "%s") : Option N).map fun e => Ops.equal e (Ops.exp b (Scalar.fromBytesBE 8 (h "%s")))'%(j,e,i))
b=body('TestFieldElementArithmeticCornerCases')
for i,sq,ad in zip(strs(b,'testVectorInput'),strs(b,'testVectorExpectedSquare'),strs(b,'testVectorExpectedAdd')):
    if sq=='NA': o.append('#eval both fun adx => Fp.fromBytesBE adx true true (h "%s") == none'%i)
    else: o.append("""#eval both fun adx => match Fp.fromBytesBE adx true true (h "%s") with
  | none => false
  | some x => let s := (X86.sqr x).fromMont adx; let m := (X86.mul adx x x).fromMont adx; let a := (X86.add x x).fromMont adx; let d := (X86.dbl x).fromMont adx
    s.equal m && s.equal (raw "%s") && a.equal d && a.equal (raw "%s")"""%(i,sq,ad))
P1='1A0111EA397FE69A4B1BA7B6434BACD764774B84F38512BF6730D2A0F6B0F6241EABFFFEB153FFFFB9FEFFFFFFFFAAAA'
o.append('#eval both fun adx => let x := raw "%s"; (X86.mul adx x (x.inverse adx)).equal Fp.R1'%P1)
o.append('#eval both fun adx => let x := X86.dbl Fp.R1; (X86.mul adx x (x.inverse adx)).equal Fp.R1 && (Fp.R1.inverse adx).equal Fp.R1')
b=body('TestOutOfRangeInputs')
for x in re.findall(r'hexToBytes<48>\("([^"]*)"\)',b):
    n={'B':2,'A':3,'0':1}[x[-1]]
    o.append("""#eval both fun adx => (List.range %d).all fun i =>
  let x := raw "%s"
  let a := Nat.repeat X86.ldbl i x
  let a2 := Nat.repeat X86.dbl i ((x.fromMont adx).toMont adx)
  (X86.mul adx a a).equal (X86.mul adx a2 a2)"""%(n,x))
o.append("""#eval [true, false].all fun c => [true, false].all fun m =>
  (Jac.fromJacobianBytes 48 (FpV.fromBytesBE true m) FpC.B c (rep 144 255)).isNone && (Jac.fromJacobianBytes 48 (FpV.fromBytesLE true m) FpC.B c (rep 144 255)).isNone &&
  (Jac.fromAffineBytes 48 (FpV.fromBytesBE true m) FpC.B c (rep 96 255)).isNone && (Jac.fromAffineBytes 48 (FpV.fromBytesLE true m) FpC.B c (rep 96 255)).isNone &&
  (Jac.fromJacobianBytes 96 (Fp2.fromBytesBE (FpV.fromBytesBE true m)) Fp2.B c (rep 288 255)).isNone && (Jac.fromJacobianBytes 96 (Fp2.fromBytesLE (FpV.fromBytesLE true m)) Fp2.B c (rep 288 255)).isNone &&
  (Jac.fromAffineBytes 96 (Fp2.fromBytesBE (FpV.fromBytesBE true m)) Fp2.B c (rep 192 255)).isNone && (Jac.fromAffineBytes 96 (Fp2.fromBytesLE (FpV.fromBytesLE true m)) Fp2.B c (rep 192 255)).isNone""")
b=body('TestG1MultiplicativePropertiesExpected')
fps=re.findall(r'fp\(\{([^}]*)\}\)',b); ss=re.findall(r'\n\s*\{(\d[^}]*UL)\}',b)
cl=lambda z: z.replace('UL','')
o.append("""#eval
  let s1 : List UInt64 := [%s]; let s2 : List UInt64 := [%s]
  let a : G1 N := ⟨FpOps.const ⟨%s⟩, FpOps.const ⟨%s⟩, FpOps.const ⟨%s⟩⟩
  match Scalar.multiply 10 s1 s2, Scalar.add 10 s1 s2 with
  | some m, some s => [a.isOnCurve FpC.B, (a.scale [1,0,0,0]).equal a, ((a.scale s1).scale s2).equal (a.scale m), ((a.scale s1).add (a.scale s2)).equal (a.scale s), ((Jac.zero : G1 N).scale s1).equal Jac.zero]
  | _, _ => []"""%(cl(ss[0]),cl(ss[1]),cl(fps[0]),cl(fps[1]),cl(fps[2])))
o.append("""#eval ((Pairing.calculate (Pairing.addPair [] (G1.one : G1 N) G2.one) (none : Option (Unit → Unit)) ()).map fun r => r.1.equal (Bls.gtGen fun n => (FpOps.toMont (Fp.ofWords ((List.range 6).map fun i => UInt64.ofNat (n / 2 ^ (64 * i)))) : N)))""")

open(sys.argv[3],'w').write('\n'.join(o).replace('%N%',sys.argv[1]))
