#!/usr/bin/env python3
"""Generates lean/Verif/Lemmas/Shift23.lean: the 2-D and 3-D formulae do not depend on where the origin of the indices is."""
import re
out=['''import Verif.Model.Antidiff2
import Verif.Model.Antidiff3
/-! # Translation of the indices in the 2-D and 3-D antidiffusive velocities
Generated table (tools/gen_sh.py). -/
set_option linter.unusedSectionVars false
set_option linter.unusedSimpArgs false
namespace Mpdata
variable {K : Type} [Field K] [LinearOrder K]

/-- the array with another origin -/
def sh2 (x y : Int) (a : Ar2 K) : Ar2 K := fun i j => a (x + i) (y + j)
theorem sh2_at (x y : Int) (a : Ar2 K) (i j : Int) : sh2 x y a i j = a (x + i) (y + j) := rfl
def sh3 (x y z : Int) (a : Ar3 K) : Ar3 K := fun i j k => a (x + i) (y + j) (z + k)
theorem sh3_at (x y z : Int) (a : Ar3 K) (i j k : Int) : sh3 x y z a i j k = a (x + i) (y + j) (z + k) := rfl
''']
for dim in (2,3):
    model=open(f'/verif/lean/Verif/Model/Antidiff{dim}.lean').read()
    defs=re.findall(r'^def (\w+) (.*?) : K :=', model, re.M|re.S)
    sig=dict(defs)
    def args(n):
        r=[]
        for g,t in re.findall(r'\(([^:()]*) : ([^()]*)\)', sig[n]):
            for v in g.split():
                if v not in 'ijk': r.append((v,t.strip()))
        return r
    done=[]
    X='x y' if dim==2 else 'x y z'
    I='i j' if dim==2 else 'i j k'
    J='(x + i) (y + j)' if dim==2 else '(x + i) (y + j) (z + k)'
    for n,_ in [d for d in defs if d[0] != 'vabs']:
        la=[f'(sh{dim} {X} {v})' if t.startswith('Ar') else v for v,t in args(n)]
        ra=[v for v,t in args(n)]
        binders=' '.join(f'({v} : {t})' for v,t in args(n))
        body=model[model.index(f'def {n} '):].split('\n/--')[0]
        lems=''.join(f', {m}_sh' for m in done if re.search(r'\b'+m+r'\b', body))
        pf=f'simp only [{n}{lems}, sh{dim}_at, ← add_assoc, ← add_sub_assoc]'
        out.append(f'theorem {n}_sh {binders} ({X} {I} : Int) :\n    {n} {" ".join(la)} {I} = {n} {" ".join(ra)} {J} := by\n  {pf}')
        done.append(n)
out.append('end Mpdata')
open('/verif/lean/Verif/Lemmas/Shift23.lean','w').write('\n'.join(out)+'\n')
