#!/usr/bin/env python3
"""Emit the primality certificate of the large prime factor of the cofactor of the second group."""
import os, sys
sys.path.insert(0, os.path.dirname(__file__))
from gen_ecpp import chain
STEPS = [
    (402096035359507321594726366720466575392706800671181159425656785868777272553337714697862511267018014931937703598282857976535744623203249, 26, 0, 198087187858876187948026791285609844381255159565316779203757098635142835015359647462967771189607664078051911815685579400366057891729768, 79550561228698798932591042957441921792184056730980905847519063592323980047105859029184585153637562782927606584160668494639054352169994, 631147317938074783288740606521862226908891080292322756358890425276370446510966235390690914315674012695198778074905372976645169),
    (631147317938074783288740606521862226908891080292322756358890425276370446510966235390690914315674012695198778074905372976645169, 407646003192752835456576385602326980703827212605668046842682349813232963136889129765709441953294351464665190812106384353547388, 184144688447430887624412164682791734498763344919013337326474274350095479762812024140727969590914690234131603549307395730449607, 433767928812615850082335331928459330533413743789426123647593246941811826742151993713276394690212561729189751516747925834980727, 169385068186576424485036771659150480504957919066420496288680368889972412590468501745700820103075588357970284443125761650342714, 16637353332582300823364312031183656315167585315971526222618891166870651228796860863),
    (16637353332582300823364312031183656315167585315971526222618891166870651228796860863, 0, 39, 9912574062628407496352101986686230317104846281700632744401773181424965405382513935, 15538983881121304471836573483273296621404649314262621199409522248688338957141858646, 278190154529062819144946777986636658135361578731725224567323),
    (278190154529062819144946777986636658135361578731725224567323, 0, 1, 167399418337113890747892065588204712305073420875427925213618, 17920798892279787152506311028075300813598105891094875268567, 86909545432951948487541309421245018191036973307298749),
    (86909545432951948487541309421245018191036973307298749, 0, 1, 1166811315464784864035634015357880695268236009401606, 56335203972143247234218337779212391053803919959516777, 687842822816544767174903671),
    (687842822816544767174903671, 0, 5, 162529829863371779863089810, 577572507104613218092418888, 12067417944150095876847367),
    (12067417944150095876847367, 0, 2, 3231961471129571982359086, 11115824369695647741297235, 7523505584230261),
    (7523505584230261, 0, 4, 77869741094579, 1652338968358256, 2530610742481),
]  # n, a, b, x, y, r: the point (x, y) of y^2 = x^3 + ax + b has prime order r modulo n

LAST = 2530610742481
o = ['''import Verif.Proof.Ecpp
import Verif.Proof.PrimeQ

/-! The large prime factor of the cofactor of the second group. Certificate data generated by
`tools/gen_ecpp_h2.py`, checked by the kernel. -/

namespace Bls.H2Prime

theorem p%d : Nat.Prime %d := by
  have key : ∀ e, powMod %d 11 e %% %d ≠ 1 %% %d → (11 : ZMod %d) ^ e ≠ 1 := by
    intro e he
    have h := powMod_eq %d 11 e
    rw [Nat.cast_ofNat] at h
    rw [← h]; exact natCast_ne_one he
  refine lucas_primality _ 11 ?_ ?_
  · have h := powMod_eq %d 11 (%d - 1)
    rw [Nat.cast_ofNat] at h
    rw [← h, show powMod %d 11 (%d - 1) = 1 by decide +kernel, Nat.cast_one]
  · intro t ht hd
    rw [show %d - 1 = 2 ^ 4 * 3 * 5 * 17 * 173 * 3585247 by norm_num] at hd
    have d : ∀ {n}, n.Prime → t ∣ n → t = n := fun hn h => (Nat.prime_dvd_prime_iff_eq ht hn).1 h
    simp only [ht.dvd_mul] at hd
    rcases hd with (((((h | h) | h) | h) | h) | h)
    · rw [d Nat.prime_two (ht.dvd_of_dvd_pow h)]; exact key _ (by decide +kernel)
    · rw [d (n := 3) (by norm_num) h]; exact key _ (by decide +kernel)
    · rw [d (n := 5) (by norm_num) h]; exact key _ (by decide +kernel)
    · rw [d (n := 17) (by norm_num) h]; exact key _ (by decide +kernel)
    · rw [d (n := 173) (by norm_num) h]; exact key _ (by decide +kernel)
    · rw [d (n := 3585247) (by norm_num) h]; exact key _ (by decide +kernel)
''' % ((len(STEPS),) + (LAST,) * 11)]
for i in reversed(range(len(STEPS))):
    n, a, b, x, y, r = STEPS[i]
    assert i + 1 == len(STEPS) and r == LAST or r == STEPS[i + 1][0]
    ws, X, Y = chain(n, a, x, y, r - 1)
    assert (X, Y) == (x, n - y)
    bs = ', '.join('true' if c == '1' else 'false' for c in bin(r - 1)[3:])
    o.append(f"""/-- Inverses used by the chain. -/
def ws{i} : List Nat := [
""" + ',\n'.join('  ' + hex(w) for w in ws) + f"""]

/-- Bits of the order minus one after the leading one. -/
def bs{i} : List Bool := [{bs}]

theorem p{i} : Nat.Prime {n} :=
  Ecpp.prime_of_check (a := {a}) (b := {b})
    (x0 := {x})
    (y0 := {y}) (bs := bs{i}) (ws := ws{i})
    (w0 := {pow(2 * y, -1, n)}) p{i + 1} (by decide +kernel) (by decide +kernel) (by decide +kernel)
""")
o.append("end Bls.H2Prime\n")
open(os.path.join(os.path.dirname(__file__), '../lean/Verif/Proof/PrimeH2.lean'), 'w').write('\n'.join(o))
