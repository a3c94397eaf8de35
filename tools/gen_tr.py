#!/usr/bin/env python3
"""Generates lean/Verif/Lemmas/Tr3.lean: how each 3-D formula changes when its two transverse directions are exchanged."""
import re
model=open('/verif/lean/Verif/Model/Antidiff3.lean').read()
defs=re.findall(r'^def (\w+) (.*?) : K :=', model, re.M|re.S)
names=[n for n,_ in defs]
def partner(n):
    m={'psiBarY3':'psiBarZ3','psiBarXY3':'psiBarXZ3','ndyPsi3':'ndzPsi3','ndxyPsi3':'ndxzPsi3','fdivCornerXY3':'fdivCornerXZ3','ndxyPsiCoeff3':'ndxzPsiCoeff3','gBarXY3':'gBarXZ3',
       'gc0BarXY3':'gc0BarXZ3','gc1BarX3':'gc2BarX3','gc1BarXY3':'gc2BarXZ3','gc1BarXZ3':'gc2BarXY3'}
    r=dict((v,k) for k,v in m.items())
    return m.get(n) or r.get(n) or n
sw={'gb':'gc','gc':'gb','ndb':'ndc','ndc':'ndb'}
out=['''import Verif.Model.Antidiff3
import Verif.Lemmas.Refl
/-! # Exchange of the two transverse directions in the 3-D antidiffusive velocities
Generated table (tools/gen_tr.py): each formula of arrays with their last two coordinates exchanged. -/
set_option linter.unusedSectionVars false
set_option linter.unusedSimpArgs false
set_option linter.unusedTactic false
set_option linter.unreachableTactic false
set_option linter.unnecessarySeqFocus false
namespace Mpdata
variable {K : Type} [Field K] [LinearOrder K]

/-- the array with its last two coordinates exchanged -/
def tr3 (a : Ar3 K) : Ar3 K := fun i j k => a i k j
theorem tr3_at (a : Ar3 K) (i j k : Int) : tr3 a i j k = a i k j := rfl
''']
sig=dict(defs)
def args(n):
    r=[]
    for g,t in re.findall(r'\(([^:()]*) : ([^()]*)\)', sig[n]):
        for v in g.split():
            if v not in 'ijk': r.append((v,t.strip()))
    return r
done=[]
for n in names:
    p=partner(n)
    la=[]
    for v,t in args(n):
        if t.startswith('Ar'): la.append(f'(tr3 {sw.get(v,v)})')
        else: la.append(v)
    ra=[v for v,t in args(p)]
    binders=' '.join(f'({v} : {t})' for v,t in args(p))
    body=model[model.index(f'def {n} '):].split('\n/--')[0]
    lems=', '.join(f'{m}_tr' for m in done if re.search(r'\b'+m+r'\b', body))
    unf=n if n==p else f'{n}, {p}'
    if n.startswith('div3rdTemporal') or n.startswith('div3rdSpatialHelper'):
        v='te' if 'Temporal' in n else 'si'
        pf=f'by\n  cases {v} <;> simp only [{n}, {lems}] <;> refl_close'
    else:
        pf=f'by\n  simp only [{unf}, {lems+", " if lems else ""}tr3_at] <;>\n  refl_close'
    out.append(f'theorem {n}_tr {binders} (i j k : Int) :\n    {n} {" ".join(la)} i j k = {p} {" ".join(ra)} i k j := {pf}')
    done.append(n)
out.append('end Mpdata')
open('/verif/lean/Verif/Lemmas/Tr3.lean','w').write('\n'.join(out)+'\n')
