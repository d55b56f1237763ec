#!/usr/bin/env python3
"""Emit an elliptic-curve primality certificate (Verif/Proof/Ecpp.lean) as a Lean module."""
import sys
def chain(n,a,x0,y0,e):
    ws=[]; X,Y=x0,y0
    for b in bin(e)[3:]:
        w=pow(2*Y,-1,n); ws.append(w); l=(3*X*X+a)*w%n
        X2=(l*l-2*X)%n; Y=(l*(X-X2)-Y)%n; X=X2
        if b=='1':
            v=pow(X-x0,-1,n); ws.append(v); l=(Y-y0)*v%n
            X2=(l*l-X-x0)%n; Y=(l*(X-X2)-Y)%n; X=X2
    return ws,X,Y
def emit(name,n_expr,n,a,b,x0,y0,r_expr,r,rprime,imports,doc,path,ns='Bls',defn=None):
    ws,X,Y=chain(n,a,x0,y0,r-1)
    assert (X,Y)==(x0,n-y0)
    o=[f'import Verif.Proof.Ecpp']+[f'import {i}' for i in imports]
    o+=['',f'/-! {doc} Certificate data generated by `tools/gen_ecpp.py`, checked by the kernel. -/','',f'namespace {ns}','']
    if defn: o+=[defn,'']
    o+=[f'/-- Inverses used by the chain. -/',f'def {name}_ws : List Nat := [']
    o+=['  '+hex(w)+(',' if i+1<len(ws) else ']') for i,w in enumerate(ws)]
    bs=', '.join('true' if c=='1' else 'false' for c in bin(r-1)[3:])
    o+=['',f'/-- Bits of `{r_expr} - 1` after the leading one. -/',f'def {name}_bs : List Bool := [{bs}]','',
    f'theorem {name}_check : Ecpp.check {n_expr} {a} {b} {hex(x0)} {hex(y0)} {r_expr} {name}_bs {name}_ws {hex(pow(2*y0,-1,n))} = true := by',
    '  decide +kernel','',f'theorem {name} : {n_expr}.Prime :=',f'  Ecpp.prime_of_check {rprime} {name}_check (by decide +kernel) (by decide +kernel)','',
    f'instance : Fact {n_expr}.Prime := ⟨{name}⟩','',f'end {ns}','']
    open(path,'w').write('\n'.join(o))
if __name__=='__main__':
    p=0x1A0111EA397FE69A4B1BA7B6434BACD764774B84F38512BF6730D2A0F6B0F6241EABFFFEB153FFFFB9FEFFFFFFFFAAAB
    q=0x73eda753299d7d483339d80809a1d80553bda402fffe5bfeffffffff00000001
    gx=0x17f1d3a73197d7942695638c4fa9ac0fc3688c4f9774b905a14e3a3f171bac586c55e83ff97a1aeffb3af00adb22c6bb
    gy=0x08b3f481e3aaa0f1a09e30ed741d8ae4fcf5e095d5d00af600db18cb2c04b3edd03cc744a2888ae40caa232946c5e7e1
    emit('p_prime','p',p,0,4,gx,gy,'q',q,'q_prime',['Verif.Proof.PrimeQ'],'The base field modulus is prime.','/verif/lean/Verif/Proof/PrimeP.lean')
