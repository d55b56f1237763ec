#!/usr/bin/env python3
"""Generate the symbolic-execution lemmas for the blocks of src/arithmetic.s
(lean/Verif/Proof/AsmMul.lean, AsmMulEx.lean, AsmSmall.lean)."""
import sys
sys.path.insert(0,'/verif/tools')
from gen_asm import parse,blocks,u64
REGS='rax rbx rcx rdx rsi rdi rbp r8 r9 r10 r11 r12 r13 r14 r15'.split()
RBP='0xffffffffffffffc8'
P=[0xb9feffffffffaaab,0x1eabfffeb153ffff,0x6730d2a0f6b0f624,0x64774b84f38512bf,0x4b1ba7b6434bacd7,0x1a0111ea397fe69a]
N=0x89f3fffcfffcfffd
FRAME=['P5','P4','P3','P2','P1','P0','N','s0','s1','s2','s3','s4','s5']
def tn(x): return f'({x} : UInt64).toNat' if x[0].isdigit() else (f'{x}.toNat' if ' ' not in x else f'({x}).toNat')
def pw(k): return f'2 ^ {64*k} * ' if k else ''
class St:
    def __init__(s): s.r={}; s.cf='cf'; s.of='of'; s.stk=[]; s.mem='m'; s.atoms=set()
def show(r,cf,of,stk,mem,tail=None):
    st='['+', '.join(stk)+']'
    return '⟨'+', '.join(r[x] for x in REGS)+f', {cf}, {of}, {st}, {mem}⟩'
class Gen:
    """Symbolic run of one block, writes the tactic script."""
    def __init__(self,r,cf,of,stk,bounds,const_frame=True):
        self.r=dict(r); self.cf=cf; self.of=of; self.stk=list(stk); self.mem='m'
        self.t=[]; self.k=0; self.eqs=[]; self.bound=dict(bounds) # atom -> (proof, num)
        self.newvars=[]; self.frame=const_frame; self.zero={}; self.sube=[]
        self.mfac={}   # info for montgomery: var -> (t, hname)
        self.hib={}
    def bd(self,x):
        if x=='0': return ('(le_of_eq UInt64.toNat_zero)',0)
        return self.bound.get(x)
    def cbd(self,c):
        return '(Bool.toNat_le _)'
    def emit(self,s): self.t.append('  '+s)
    def fresh(self): self.k+=1; return self.k
    def rd(self,a):
        """value and proof of the read"""
        if a[0]=='reg': return self.r[a[1]],'rfl'
        if a[0]=='imm': return u64(a[1]),'rfl'
        if a[2]=='rbp':
            d=a[1]; idx={0:'N',2**64-8:'P0',2**64-16:'P1',2**64-24:'P2',2**64-32:'P3',2**64-40:'P4',2**64-48:'P5'}[d]
            pos=['N','P0','P1','P2','P3','P4','P5'].index(idx)
            top=self.stk[:len(self.stk)-13]
            proj='.2'*pos+('.1' if pos<6 else '')
            return idx,f"(stkRead_frame [{', '.join(top)}] P5 P4 P3 P2 P1 P0 N s0 s1 s2 s3 s4 s5){proj}"
        return f"m ({self.r[a[2]]} + {u64(a[1])})",'rfl'
    def norm(self,h,ins,cin):
        ls=[]
        if '0' in ins: ls.append('UInt64.toNat_zero')
        if cin=='false': ls.append('Bool.toNat_false')
        if ls: self.emit(f"simp only [{', '.join(ls)}, add_zero, zero_add] at {h}")
    def run(self,ins):
        for op,a in ins:
            k=None
            if op=='push':
                self.emit('refine wp_push ?_'); self.emit('dsimp only [Cpu.get]')
                self.stk.insert(0,self.r[a[0][1]])
            elif op=='pop':
                self.emit('refine wp_pop rfl ?_'); self.emit('dsimp only [Cpu.set]')
                self.r[a[0][1]]=self.stk.pop(0)
            elif op=='mov':
                if a[1][0]=='mem':
                    self.emit('refine wp_store ?_'); self.emit('dsimp only [Cpu.get]')
                    self.mem=f"(memSet {self.mem} ({self.r[a[1][2]]} + {u64(a[1][1])}) ({self.r[a[0][1]]}))"
                elif a[0]==('reg','rsp'):
                    self.emit('refine wp_movRsp (a := 0xffffffffffffffc8) rfl ?_'); self.emit('dsimp only [Cpu.set]')
                    self.r[a[1][1]]=RBP
                else:
                    v,pf=self.rd(a[0])
                    self.emit(f'refine wp_mov {pf} ?_'); self.emit('dsimp only [Cpu.set, Cpu.get]')
                    self.r[a[1][1]]=v
            elif op in('add','adc','adcx','adox'):
                k=self.fresh(); v,c,h=f'v{k}',f'c{k}',f'h{k}'
                src,pf=self.rd(a[0]); d=self.r[a[1][1]]
                if op in('add','adc'):
                    o=f'o{k}'
                    self.emit(f'refine wp_{op} {pf} (fun {v} {c} {o} {h} => ?_)')
                    cin=None if op=='add' else self.cf
                    self.newvars+= [(v,'UInt64'),(c,'Bool'),(o,'Bool')]
                else:
                    self.emit(f'refine wp_{op} (fun {v} {c} {h} => ?_)')
                    cin=self.cf if op=='adcx' else self.of
                    self.newvars+= [(v,'UInt64'),(c,'Bool')]
                self.emit(f'dsimp only [Cpu.set, Cpu.get] at {h} ⊢')
                if op!='adox': self.cf=c
                if op=='adox': self.of=c
                elif op in('add','adc'): self.of=o
                ins_=[d,src]
                # small bound?
                ba,bb=self.bd(d),self.bd(src)
                extra=0 if cin in(None,'false') else 1
                if ba and bb and ba[1]+bb[1]+1<2**64:
                    z=f'z{k}'; b=f'b{k}'
                    if cin is None:
                        self.emit(f'obtain ⟨{b}, {z}⟩ := add_small {h} {ba[0]} {bb[0]} (by norm_num)')
                        self.bound[v]=(b,ba[1]+bb[1])
                    else:
                        self.emit(f'obtain ⟨{b}, {z}⟩ := adc_small {h} {ba[0]} {bb[0]} (Bool.toNat_le _) (by norm_num)')
                        self.bound[v]=(b,ba[1]+bb[1]+1)
                    self.emit(f'rw [{z}, Nat.mul_zero, Nat.add_zero] at {h}')
                    self.zero[c]=z
                self.norm(h,ins_,cin)
                L=self.eqs[-4:]
                if op=='adc' and d=='0' and c not in self.zero and len(L)==4 and 'mul' in L[0] and L[2]['v']==src and L[3]['c']==cin:
                    self.emit(f"have z{k} := mac_top {L[0]['h']} {L[1]['h']} {L[2]['h']} {L[3]['h']} {h} (u64_lt _) (u64_lt _) (u64_lt _) (u64_lt _)")
                    self.emit(f'rw [z{k}, Nat.mul_zero, Nat.add_zero] at {h}')
                    self.zero[c]=f'z{k}'
                # montgomery low limb
                if src in self.mfac and self.mfac[src][0]==d and op in('add','adox'):
                    t,hm,hl=self.mfac[src]
                    assert cin in(None,'false'),(cin)
                    if c in self.zero: raise Exception
                    self.emit(f'have y{k} := mont_low {hm} {hl} {h} (u64_lt _) hN')
                    self.bound[v]=(f'(le_of_eq y{k})',0)
                    self.zero[v]=f'y{k}'
                    self.emit(f'rw [y{k}, Nat.zero_add] at {h}')
                ins2=[x for x in ins_ if x!='0']+([cin] if cin not in(None,'false') else [])
                # a zero-valued input variable (cleared low limb)
                zz=[x for x in ins2 if x in self.zero]
                if zz:
                    self.emit(f"simp only [{', '.join(dict.fromkeys(self.zero[x] for x in zz))}, zero_add, add_zero] at {h}")
                    ins2=[x for x in ins2 if x not in self.zero]
                self.eqs.append(dict(h=h,v=v,c=c,ins=ins2))
                self.r[a[1][1]]=v
            elif op in('mul','mulx'):
                k=self.fresh(); lo,hi,h=f'l{k}',f'u{k}',f'h{k}'
                src,pf=self.rd(a[0])
                if op=='mul':
                    self.emit(f'refine wp_mul {pf} (fun {lo} {hi} c{k} o{k} {h} => ?_)')
                    self.newvars+=[(lo,'UInt64'),(hi,'UInt64'),(f'c{k}','Bool'),(f'o{k}','Bool')]
                    f1=self.r['rax']
                else:
                    self.emit(f'refine wp_mulx {pf} (fun {lo} {hi} {h} => ?_)')
                    self.newvars+=[(lo,'UInt64'),(hi,'UInt64')]
                    f1=self.r['rdx']
                self.emit(f'dsimp only [Cpu.set, Cpu.get] at {h} ⊢')
                # bounds on hi
                P5in='P5' in(src,f1)
                if P5in:
                    if f1=='P5': self.emit(f'rw [Nat.mul_comm P5.toNat] at {h}')
                    self.emit(f'have b{k} := mul_hi61 {h} (u64_lt _) hP5'); self.bound[hi]=(f'b{k}',2**61)
                else:
                    self.emit(f'have b{k} := mul_hi {h} (u64_lt _) (u64_lt _)'); self.bound[hi]=(f'b{k}',2**64-2)
                # montgomery factor bookkeeping
                if src=='N':
                    self.mvar=lo; self.mt=f1; self.mh=h
                if 'P0' in(src,f1):
                    if f1!='P0': self.emit(f'rw [Nat.mul_comm _ P0.toNat] at {h}')
                    self.mfac[lo]=(self.mt,self.mh,h)
                self.eqs.append(dict(h=h,v=lo,c=hi,ins=[],mul=(f1,src),dead=(src=='N')))
                if op=='mul':
                    self.r['rax']=lo; self.r['rdx']=hi; self.cf=f'c{k}'; self.of=f'o{k}'
                else:
                    self.r[a[1][1]]=lo; self.r[a[2][1]]=hi
            elif op=='xor':
                assert a[0]==a[1]
                self.emit('refine wp_xor_self ?_'); self.emit('dsimp only [Cpu.set]')
                self.r[a[0][1]]='0'; self.cf='false'; self.of='false'
            elif op in('sub','sbb'):
                k=self.fresh(); v,c,h,o=f'v{k}',f'c{k}',f'h{k}',f'o{k}'
                src,pf=self.rd(a[0]); d=self.r[a[1][1]]
                self.emit(f'refine wp_{op} {pf} (fun {v} {c} {o} {h} => ?_)')
                self.newvars+= [(v,'UInt64'),(c,'Bool'),(o,'Bool')]
                self.emit(f'dsimp only [Cpu.set, Cpu.get] at {h} ⊢')
                self.sube.append(dict(h=h,v=v,c=c,a=src,d=d)); self.cf=c; self.of=o
                self.r[a[1][1]]=v
            elif op=='cmovae':
                self.emit('refine wp_cmovae ?_'); self.emit('dsimp only [Cpu.set, Cpu.get]')
                s,d=a[0][1],a[1][1]
                self.r[d]=f'(bif {self.cf} then {self.r[d]} else {self.r[s]})'
            elif op=='ret':
                self.emit('refine wp_ret rfl ?_')
            else: raise Exception(op)
    def combo(self,target,eqs=None):
        """target: list of (atom, power k) -> linear combination text, rhs weights, top carry"""
        W={}
        for at,k in target: W[at]=W.get(at,0)+2**(64*k)
        terms=[];prods=[];tops=[]
        for e in reversed(self.eqs if eqs is None else eqs):
            if e.get('dead'): continue
            lam=W.pop(e['v'],0) if e['v'] not in self.zero else 0
            wc=W.pop(e['c'],0)
            if e['v'] in self.zero:
                W.pop(e['v'],0)
                lam=wc//2**64; assert lam*2**64==wc
            if lam==0 and wc==0: continue
            if e['c'] in self.zero: wc=lam*2**64
            if wc!=lam*2**64:
                assert wc==0,(e,lam,wc)
                tops.append((e['c'],lam*2**64))
            for i in e['ins']:
                if i in self.zero: 
                    W[i]=W.get(i,0)+lam; continue
                W[i]=W.get(i,0)+lam
            if 'mul' in e: prods.append((e['mul'],lam))
            terms.append((e['h'],lam))
        return terms,prods,tops,W
def lg(n):
    k=n.bit_length()-1; assert n==1<<k and k%64==0,(n); return k//64
def combtext(terms):
    return ' + '.join((f'2 ^ {64*lg(l)} * {h}' if l!=1 else h) for h,l in terms)
def sumtext(pairs):
    pairs=sorted(pairs,key=lambda x:x[1])
    return ' + '.join(pw(k)+tn(a) for a,k in pairs)
def gen_block(name,code,r,cf,of,stk,bounds,hyps,target,extra_export,top=False,kind='row',info=None):
    """returns lemma text and final symbolic state"""
    g=Gen(r,cf,of,stk,bounds)
    g.run(code)
    tgt=[(g.r[x] if not x.startswith('stk') else g.stk[int(x[3:])],k) for x,k in target]
    terms,prods,tops,W=g.combo(tgt)
    return g,tgt,terms,prods,tops,W
def vars_of(r,cf,of,stk):
    vs=[]
    for x in list(r.values())+list(stk):
        if x not in vs and x[0].isalpha() and ' ' not in x: vs.append(x)
    bs=[b for b in(cf,of) if b not in('true','false')]
    return vs,bs
def build(routine,outfile,imports):
    F=parse(); bl=blocks(F[routine])
    o=[f'''import Verif.Proof.X86Mont

/-! Symbolic execution of the blocks of `{routine}` (`src/arithmetic.s`). Generated by
`tools/gen_asm_proof.py`; every step is checked by Lean. -/

namespace Bls.X86

set_option exponentiation.threshold 1000
set_option linter.unusedVariables false
set_option linter.unusedSimpArgs false
''']
    # symbolic walk
    r={x:x for x in REGS}; cf,of='cf','of'; stk=[]
    bounds={}; bhyps=[]   # (name, statement)
    rowi=0; chain=[]
    for nm,l1,l2,code in bl:
        if nm in('pre','load','red','out') and nm!='red': 
            pass
        g=Gen(r,cf,of,stk,bounds); g.run(code)
        vs,bs=vars_of(r,cf,of,stk)
        hyp=[]; concl=[]; pre=[]
        def mem6(reg,off=0): return [f'm ({r[reg]} + {u64(8*j)})' for j in range(6)]
        eqtext=None
        if nm.startswith('row'):
            i=int(nm[3:])
            # target: pushed low words and accumulators: find by order of positions
            # derive output atoms: run weights: product lo of y0 has position 0
            if routine=='multiply':
                acc=[['r8','r9','r10','r11','r12','r13','r14','r15'][(i+j)%8] for j in range(0,7)]
                # row i: position0 word lives in acc list starting at r(8+i-1)
                cyc=['r8','r9','r10','r11','r12','r13','r14','r15']
                outregs=[cyc[(i-1+j)%8] for j in range(7)]
            else:
                cyc=['rcx','r8','r9','r10','r11','r12','r13','r14','r15','rcx','rsi']
                outregs=[cyc[i-1+j] if i>0 else None for j in range(7)]
                if i==0: outregs=[None]+cyc[0:6]
            # position 0 register value (maybe pushed)
            tg=[]
            for j in range(7):
                if j==0 and i==0: tg.append((g.stk[0],0)); continue
                if j==0 and len(g.stk)>len(stk): tg.append((g.stk[0],0)); continue
                reg=outregs[j]
                if routine=='multiply' and i==5 and j==6: reg='rbx'
                tg.append((g.r[reg],j))
            if nm=='row5': # trailing pops/pushes move registers
                # recompute using pre-pop state: find by eqs
                gg=Gen(r,cf,of,stk,bounds)
                cut=[q for q,(op,a) in enumerate(code) if op=='pop'][0]
                gg.run(code[:cut])
                tg=[]
                for j in range(7):
                    reg=outregs[j]
                    if routine=='multiply' and j==6: reg='rbx'
                    tg.append((gg.r[reg],j))
            terms,prods,tops,W=g.combo(tg)
            x=[f'm ({r["rsi"]} + {u64(8*i)})']; ys=mem6('rdi')
            for (f1,f2),lam in prods:
                assert {f1,f2}<= set(ys+x),(f1,f2)
            inacc=sorted([(a,lg(w)) for a,w in W.items() if w],key=lambda t:t[1])
            lhs=sumtext(tg)
            Y=' + '.join(pw(j)+tn(ys[j]) for j in range(6))
            A=sumtext(inacc) if inacc else '0'
            if tops:
                assert len(tops)==1 and tops[0][1]==2**448,tops
                pre.append(f'  have key : {lhs} + 2 ^ 448 * {tops[0][0]}.toNat = {A} + {tn(x[0])} * ({Y}) := by')
                pre.append(f'    linear_combination {combtext(terms)}')
                al=[a for a,k in inacc]
                while len(al)<6: al.append('0')
                if len(inacc)==6:
                    pre.append(f"  rw [row_top key (u6_lt {' '.join('('+a+')' for a in al)}) (u64_lt _) (u6_lt {' '.join('('+y+')' for y in ys)}), Nat.mul_zero, Nat.add_zero] at key")
                else:
                    raise Exception('inacc %d'%len(inacc))
            else:
                pre.append(f'  have key : {lhs} = {A} + {tn(x[0])} * ({Y}) := by')
                pre.append(f'    linear_combination {combtext(terms)}')
            concl=[f'{lhs} = {A} + {tn(x[0])} * ({Y})']; pre_h=['key']
        elif nm.startswith('mont'):
            i=int(nm[4:])
            hyp+= ['(hN : (N.toNat * P0.toNat + 1) % 2 ^ 64 = 0)','(hP5 : P5.toNat ≤ 2 ^ 61)']
            # input words: t_i .. t_{i+6}, carry c
            if routine=='multiply':
                seq=['rcx','rdi','rsi','r10','r11','r12','r13','r14','r15','r8','STK0','STK0']
                # word i .. i+5 regs
                words=[seq[i+j] for j in range(6)]
            else:
                seq=['rbx','rdi','r8','r9','r10','r11','r12','r13','r14','r15','rcx','STK0']
            tail=(i==5)
            mvar=g.mvar
            # outputs
            if routine=='multiply':
                if i==0: outs=[('rdi',1),('rsi',2),('r10',3),('r11',4),('r12',5),('r13',6),('rcx',7)]
                elif i==1: outs=[('rsi',1),('r10',2),('r11',3),('r12',4),('r13',5),('r14',6),('rcx',7)]
                elif i==2: outs=[('r10',1),('r11',2),('r12',3),('r13',4),('r14',5),('r15',6),('rcx',7)]
                elif i==3: outs=[('r11',1),('r12',2),('r13',3),('r14',4),('r15',5),('r8',6),('rcx',7)]
                elif i==4: outs=[('r12',1),('r13',2),('r14',3),('r15',4),('r8',5),('rdi',6),('rcx',7)]
                else: outs=[('r13',1),('r14',2),('r15',3),('r8',4),('rdi',5),('rcx',6)]
            else:
                cy=['rbx','rdi','r8','r9','r10','r11']
                w=['rbx','rdi','r8','r9','r10','r11','r12','r13','r14','r15','rcx']
                if i<5: outs=[(w[i+j],j) for j in range(1,7)]+[(cy[i],7)]
                else: outs=[('r12',1),('r13',2),('r14',3),('r15',4),('rcx',5),('rbx',6)]
            tg=[(g.r[x],k) for x,k in outs]
            terms,prods,tops,W=g.combo(tg)
            inn=sorted([(a,lg(w_)) for a,w_ in W.items() if w_ and a not in g.zero],key=lambda t:t[1])
            lhs=sumtext(tg)
            Pt=' + '.join(pw(j)+f'P{j}.toNat' for j in range(6))
            A=sumtext(inn)
            for (f1,f2),lam in prods:
                assert mvar in(f1,f2)
            zs=[f'{g.zero[a]}' for a,w_ in W.items() if w_ and a in g.zero]
            zterm=''
            for a,w_ in W.items():
                if w_ and a in g.zero: zterm+=f' + {w_} * {g.zero[a]}'
            topt=''
            if tops:
                assert all(t[1]==2**448 for t in tops),(nm,tops)
                topt=''.join(f' + 2 ^ 448 * {t[0]}.toNat' for t in tops)
            pre.append(f'  have key : {lhs}{topt} = {A} + {mvar}.toNat * ({Pt}) := by')
            pre.append(f'    linear_combination {combtext(terms)}{zterm}')
            concl=[f'{lhs}{topt} = {A} + {mvar}.toNat * ({Pt})']; pre_h=['key']
            if i<5:
                cv=g.r[outs[-1][0]]
                if cv in g.bound:
                    b=g.bound[cv]
                    pre.append(f'  have keyb : {cv}.toNat ≤ 2 := by have := {b[0]}; omega')
                else: raise Exception('no bound')
                concl.append(f'{cv}.toNat ≤ 2'); pre_h.append('keyb')
        elif nm=='red':
            sb=g.sube
            lhs=' + '.join(pw(j)+tn(e['v']) for j,e in enumerate(sb)); Pt=' + '.join(pw(j)+tn(e['a']) for j,e in enumerate(sb))
            T=' + '.join(pw(j)+tn(e['d']) for j,e in enumerate(sb))
            stt=f'{lhs} + ({Pt}) = {T} + 2 ^ 384 * {sb[-1]["c"]}.toNat'
            pre.append(f'  have key : {stt} := by')
            pre.append('    linear_combination '+' + '.join(pw(j)+e['h'] for j,e in enumerate(sb)))
            concl=[stt]; pre_h=['key']
        else: pre_h=[]
        # incoming bound hyps
        binds=[f'({h} : {st})' for h,st in bhyps if any(v==st.split('.')[0] for v in vs)]
        # final state
        fin=[g.r[x] for x in REGS]
        used=' '.join(fin+[g.cf,g.of]+g.stk+[g.mem])+' '+' '.join(concl)
        import re
        toks=set(re.findall(r'[A-Za-z_]\w*',used))
        nv=[(v,t) for v,t in g.newvars if v in toks]
        q=' '.join(f'({v} : {t})' for v,t in nv)
        H='∀ '+q+', ' if nv else ''
        H+=' → '.join(f'({c})' for c in concl)+(' → ' if concl else '')
        H+='wp is Q '+show(g.r,g.cf,g.of,g.stk,g.mem)
        o.append(f'theorem {routine}_{nm}_wp {{is : List Instr}} {{Q : Cpu → Prop}}')
        o.append('    {'+' '.join(vs)+' : UInt64}'+(' {'+' '.join(bs)+' : Bool}' if bs else '')+' {m : UInt64 → UInt64}')
        for x_ in hyp+binds: o.append('    '+x_)
        o.append(f'    (H : {H}) :')
        o.append(f'    wp (Asm.{routine}_{nm} ++ is) Q {show(r,cf,of,stk,"m")} := by')
        o.append(f'  simp only [Asm.{routine}_{nm}, List.cons_append, List.nil_append]')
        o+=g.t
        o+=pre
        o.append('  exact H '+' '.join(v for v,t in nv)+' '+' '.join(pre_h)+'\n')
        chain.append(dict(nm=nm,nv=[v for v,t in nv],ph=pre_h,hyp=len(hyp),binds=len(binds),outs=(outs if nm.startswith('mont') else None),mvar=(g.mvar if nm.startswith('mont') else None),tops=(tops if nm.startswith('mont') else []),sub=g.sube,tgv=([a for a,k in tg] if nm.startswith('mont') else None)))
        # next state: rename
        r2={};seen={}
        if nm=='pre' or True:
            for x in REGS:
                v=g.r[x]
                if v[0].isdigit(): r2[x]=v
                elif v in seen: r2[x]=x  # alias forgotten
                else: r2[x]=x
        # stack naming
        st2=[]
        base=len(g.stk)-13
        if base>=0:
            tail=FRAME; topn=g.stk[:base]
            # z is deepest of top
            names=[]
            for q_ in range(base):
                names.append('z' if q_==base-1 else f't{base-2-q_}')
            st2=names+FRAME
        r,cf,of,stk=r2,('cf' if g.cf not in('true','false') else g.cf),('of' if g.of not in('true','false') else g.of),st2
        bounds={}; bhyps=[]
        if nm.startswith('mont') and int(nm[4:])<5:
            creg=outs[-1][0]
            bounds={creg:('hcy',2)}; bhyps=[('hcy',f'{creg}.toNat ≤ 2')]
    o+=main_thm(routine,chain)
    o.append('end Bls.X86\n')
    open(outfile,'w').write('\n'.join(o))
def main_thm(routine,chain):
    o=[]
    o.append(f'''/-- `{routine}` computes the Montgomery product of the words the two pointers point to before the call,
stores it through the destination pointer, and restores the callee-saved registers. -/
theorem {routine}_wp : Computes Asm.{routine} (fun x y => redc (x * y)) := by
  intro s hs
  obtain ⟨rax, rbx, rcx, rdx, rsi, rdi, rbp, r8, r9, r10, r11, r12, r13, r14, r15, cf, of, stk, m⟩ := s
  dsimp only at hs ⊢
  subst hs
  unfold Asm.{routine}
  rw [← List.append_nil Asm.{routine}_out]''')
    E=[];M=[];pref=''
    fin=None
    for q,c in enumerate(chain):
        nm=c['nm']
        names=[f'{v}_{q}' for v in c['nv']]
        hs=[('E' if nm.startswith('row') else 'M' if nm.startswith('mont') else 'S')+f'{q}' if h=='key' else f'B{q}' for h in c['ph']]
        for h in hs:
            if h[0]=='E': E.append(h)
            if h[0]=='M': M.append(h)
        args=[]
        if c['hyp']: args+=['hN0','hP50']
        if c['binds']: args.append(f'B{q-1}')
        fn=f"(fun {' '.join(names+hs)} => ?_)" if names+hs else '?_'
        if nm=='mont5':
            tt=[f"{[v for v in c['nv']][0]}"]
        o.append(f"  refine {routine}_{nm}_wp {' '.join(args)} {fn}")
        if nm=='mont5':
            mq=q; tops=[f'{t[0]}_{q}' for t in c['tops']]
        if nm=='red':
            sq=q; sub=c['sub']
    mont=[(q,c) for q,c in enumerate(chain) if c['nm'].startswith('mont')]
    ms=[f"{c['mvar']}_{q}" for q,c in mont]
    T=[f'{v}_{mq}' for v in mont[-1][1]['tgv']]
    D=[f"{e['v']}_{sq}" for e in sub]; bor=f"{sub[-1]['c']}_{sq}"
    Mt=' + '.join(pw(j)+tn(x) for j,x in enumerate(ms)); Tt=' + '.join(pw(j)+tn(x) for j,x in enumerate(T))
    Dt=' + '.join(pw(j)+tn(x) for j,x in enumerate(D))
    tops_t=' + '.join(f'{t}.toNat' for t in tops)
    comb=' + '.join(pw(j)+h for j,h in enumerate(E))+' + '+' + '.join(pw(j)+h for j,h in enumerate(M))
    xs=[f'm (rsi + {u64(8*j)})' for j in range(6)]; ys=[f'm (rdx + {u64(8*j)})' for j in range(6)]
    Xt=' + '.join(pw(j)+tn(x) for j,x in enumerate(xs)); Yt=' + '.join(pw(j)+tn(x) for j,x in enumerate(ys))
    Pn=[f'({u64(x)} : UInt64)' for x in P]
    Pt=' + '.join(pw(j)+f'{x}.toNat' for j,x in enumerate(Pn))
    par=lambda l: ' '.join('('+x+')' for x in l)
    o.append(f'''  rw [readFp_val, readFp_val]
  have key : 2 ^ 384 * ({Tt}) + 2 ^ 768 * ({tops_t}) =
      ({Xt}) * ({Yt}) + ({Mt}) * ({Pt}) := by
    linear_combination {comb}
  have hend := mont_end (P := _) modulus_sum key (u6_lt {par(ms)}) (u6_lt {par(T)}) (u6_lt {par(D)}) S{sq} (Bool.toNat_le _)
  refine wp_nil ⟨⟨{', '.join(f'bif {bor} then {t} else {d}' for t,d in zip(T,D))}⟩, ?_, rfl, rfl, rfl, rfl, rfl, rfl, rfl, rfl⟩
  rw [Fp.val_flat]
  cases {bor}
  · simpa using hend
  · simpa using hend
''')
    return o
if __name__=='__main__':
    build('multiply','/verif/lean/Verif/Proof/AsmMul.lean',None)
    build('mul_ex','/verif/lean/Verif/Proof/AsmMulEx.lean',None)
