#!/usr/bin/env python3
"""Generate lean/Verif/Model/AsmCode.lean from the text of /repo/src/arithmetic.s."""
import re,sys
SRC='/repo/src/arithmetic.s'
NAMES={'_ZN9bls12_3814_addEPNS_2fpEPKS0_S3_':'add','_ZN9bls12_3815_laddEPNS_2fpEPKS0_S3_':'ladd',
'_ZN9bls12_3817_doubleEPNS_2fpEPKS0_':'double','_ZN9bls12_3818_ldoubleEPNS_2fpEPKS0_':'ldouble',
'_ZN9bls12_3819_subtractEPNS_2fpEPKS0_S3_':'subtract','_ZN9bls12_38110_lsubtractEPNS_2fpEPKS0_S3_':'lsubtract',
'_ZN9bls12_3818__negateEPNS_2fpEPKS0_':'negate','_ZN9bls12_38110__multiplyEPNS_2fpEPKS0_S3_':'multiply',
'_ZN9bls12_3818__mul_exEPNS_2fpEPKS0_S3_':'mul_ex'}
CPP={'add':'_add','ladd':'_ladd','double':'_double','ldouble':'_ldouble','subtract':'_subtract',
'lsubtract':'_lsubtract','negate':'__negate','multiply':'__multiply','mul_ex':'__mul_ex'}
def num(s): return int(s,0)
def u64(n):
    n%=2**64
    return '0x%x'%n if n>9 else str(n)
def parse_opd(o):
    o=o.strip()
    if o.startswith('$'): return ('imm',num(o[1:])%2**64)
    if o.startswith('%'): return ('reg',o[1:])
    m=re.match(r'(-?\w*)\(%(\w+)\)$',o)
    d=m.group(1); d=num(d) if d else 0
    return ('mem',d%2**64,m.group(2))
def split(s):
    out=[];cur='';dep=0
    for ch in s:
        if ch=='(':dep+=1
        if ch==')':dep-=1
        if ch==',' and dep==0: out.append(cur);cur=''
        else: cur+=ch
    if cur.strip(): out.append(cur)
    return out
def parse():
    funcs={};cur=None
    for ln,l in enumerate(open(SRC).read().split('\n'),1):
        com=re.match(r'\s*#\s*(i\d|montgomery reduction|modular reduction|out)\s*$',l)
        c=l.split('#')[0].rstrip()
        if com and cur is not None:
            cur['ins'].append((ln,'label',com.group(1)));continue
        if not c.strip(): continue
        m=re.match(r'(\w+):$',c.strip())
        if m:
            cur={'name':NAMES[m.group(1)],'start':ln,'ins':[]}
            funcs[cur['name']]=cur;continue
        if c.strip().startswith('.'):
            if c.strip().startswith('.size'): cur['end']=ln-1; cur=None
            continue
        p=c.strip().split(None,1)
        op=p[0]; args=[parse_opd(a) for a in split(p[1])] if len(p)>1 else []
        if op=='mulq': op='mul'
        if op=='retq': op='ret'
        cur['ins'].append((ln,op,args))
    return funcs
def lo(a):
    if a[0]=='reg': return f'(.reg .{a[1]})'
    if a[0]=='imm': return f'(.imm {u64(a[1])})'
    return f'(.mem {u64(a[1])} .{a[2]})'
def r(a): assert a[0]=='reg',a; return '.'+a[1]
def lean(op,a):
    if op in('push','pop'): return f'.{op} {r(a[0])}'
    if op=='mov':
        if a[1][0]=='mem': return f'.store {r(a[0])} {u64(a[1][1])} .{a[1][2]}'
        if a[0]==('reg','rsp'): return f'.movRsp {r(a[1])}'
        return f'.mov {lo(a[0])} {r(a[1])}'
    if op in('add','adc','sub','sbb'): return f'.{op} {lo(a[0])} {r(a[1])}'
    if op in('adcx','adox','xor','cmovae'): return f'.{op} {r(a[0])} {r(a[1])}'
    if op=='mul': return f'.mul {lo(a[0])}'
    if op=='mulx': return f'.mulx {lo(a[0])} {r(a[1])} {r(a[2])}'
    if op=='ret': return '.ret'
    raise Exception(op)
def blocks(f):
    """split at labels: returns list of (blockname, first, last, instrs)"""
    bl=[];cur=['pre',None,None,[]];phase='row'
    for ln,op,a in f['ins']:
        if op=='label':
            bl.append(cur)
            if a=='montgomery reduction': phase='mont'; nm='load'
            elif a[0]=='i': nm=phase+a[1:]
            elif a=='modular reduction': nm='red'
            else: nm='out'
            cur=[nm,None,None,[]]
            continue
        if cur[1] is None: cur[1]=ln
        cur[2]=ln; cur[3].append((op,a))
    bl.append(cur)
    return [b for b in bl if b[3]]
def main():
    F=parse(); o=[]
    o.append('''import Verif.Model.X86

/-!
# The routines of `src/arithmetic.s` as instruction lists

Generated by `tools/gen_asm.py` from the text of the assembly file, instruction by instruction and in
order. The two long routines are cut into consecutive blocks at the comments of the source.
-/

namespace Bls.X86.Asm
''')
    for n,f in F.items():
        bl=blocks(f)
        if len(bl)==1:
            o.append(f'/-- `{CPP[n]}`: `src/arithmetic.s:{f["start"]}-{f["end"]}`. -/')
            o.append(f'def {n} : List Instr := [')
            o.append(',\n'.join('  '+lean(*i) for i in bl[0][3])+']\n')
        else:
            for b in bl:
                o.append(f'/-- Part of `{CPP[n]}`: `src/arithmetic.s:{b[1]}-{b[2]}`. -/')
                o.append(f'def {n}_{b[0]} : List Instr := [')
                o.append(',\n'.join('  '+lean(*i) for i in b[3])+']\n')
            o.append(f'/-- `{CPP[n]}`: `src/arithmetic.s:{f["start"]}-{f["end"]}`. -/')
            o.append(f'def {n} : List Instr :=\n  '+' ++ ('.join(f'{n}_{b[0]}' for b in bl)+')'*(len(bl)-1)+'\n')
    o.append('end Bls.X86.Asm')
    open('/verif/lean/Verif/Model/AsmCode.lean','w').write('\n'.join(o)+'\n')
if __name__=='__main__': main()
