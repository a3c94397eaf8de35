import re
model=open('/verif/lean/Verif/Model/Antidiff1.lean').read()
defs=re.findall(r'^def (\w+) (.*?) : K :=', model, re.M|re.S)
tab={'gBarX1':('f','+'),'gc0BarX1':('c','-'),'ndxGC01':('f','+'),'psiBarX1':('f','+'),'ndxxGC01':('f','-'),'ndttGC01':('f','-'),'ndxPsi1':('f','-'),'ndxxPsi1':('f','+'),'fdivCentre1':('c','+'),
'nfdiv1':('f','+'),'nfdivFdiv1':('f','+'),'ndxFdiv1':('f','-'),'ndxxPsiCoeff1':('f','-'),'tot1':('f','-'),'dfl1':('f','-'),'div2nd1':('f','-'),'div3rdUpwind1':('f','-'),'div3rdTemporal1':('f','-'),
'div3rdSpatialHelper1':('f','-'),'div3rdSpatial1':('f','-'),'div3rd1':('f','-'),'antidiff1':('f','-')}
out=['''import Verif.Model.Antidiff1
import Verif.Lemmas.Refl
/-! # Mirror symmetry of the 1-D antidiffusive velocities
Generated table: each formula of arrays run through in the opposite direction, `i ↦ L - i` for cells, `i ↦ L - 1 - i` and a change of sign for faces. -/
set_option linter.unusedSectionVars false
set_option linter.unusedSimpArgs false
set_option linter.unusedTactic false
set_option linter.unreachableTactic false
set_option linter.unnecessarySeqFocus false
namespace Mpdata
variable {K : Type} [Field K] [LinearOrder K]

def c1r (L : Int) (a : Int → K) : Int → K := fun i => a (L - i)
def f1r (L : Int) (a : Int → K) : Int → K := fun i => -a (L - 1 - i)
theorem c1r_at (L : Int) (a : Int → K) (i : Int) : c1r L a i = a (L - i) := rfl
theorem f1r_at (L : Int) (a : Int → K) (i : Int) : f1r L a i = -a (L - 1 - i) := rfl
theorem rj1 (L i : Int) : L - (i + 1) = L - i - 1 := by ring
theorem rj2 (L i : Int) : L - (i + 2) = L - i - 2 := by ring
theorem rj3 (L i : Int) : L - (i - 1) = L - i + 1 := by ring
theorem rj4 (L i : Int) : L - 1 - (i + 1) = L - i - 2 := by ring
theorem rj5 (L i : Int) : L - 1 - (i - 1) = L - i := by ring
theorem rj6 (L i : Int) : L - 1 - i = L - i - 1 := by ring
theorem rj7 (i : Int) : i - 1 + 1 = i := by ring
theorem rj8 (i : Int) : i + 1 - 1 = i := by ring
theorem rj9 (i : Int) : i - 1 - 1 = i - 2 := by ring
theorem rj10 (i : Int) : i - 1 + 2 = i + 1 := by ring
theorem gFac1_r (o : OptsT) (L : Int) (G : Int → K) (i : Int) : gFac1 o (c1r L G) i = gFac1 o G (L - i) := rfl
''']
done=['gFac1']
for n,sig in defs:
    if n not in tab: continue
    loc,par=tab[n]
    args=[]
    for g,t in re.findall(r'\(([^:()]*) : ([^()]*)\)', sig):
        for v in g.split(): args.append((v,t.strip()))
    binders=' '.join(f'({v} : {t})' for v,t in args if v!='i')
    la=[];ra=[]
    for v,t in args:
        if v=='i': continue
        if '→' in t: la.append(f'(f1r L {v})' if v in('GC','ndtGC','ndttGC') else f'(c1r L {v})')
        else: la.append(v)
        ra.append(v)
    e='(L - i)' if loc=='c' else '(L - 1 - i)'
    s='-' if par=='-' else ''
    body=model[model.index(f'def {n} '):].split('\n/--')[0]
    lems=', '.join(f'{m}_r' for m in done if re.search(r'\b'+m+r'\b', body))
    if n.startswith('div3rdTemporal') or n.startswith('div3rdSpatialHelper'):
        v='te' if 'Temporal' in n else 'si'
        pf=f'by\n  cases {v} <;> simp only [{n}, {lems}, rj6] <;> refl_close'
    else:
        pf=f'by\n  simp only [{n}, {lems+", " if lems else ""}c1r_at, f1r_at, rj1, rj2, rj3, rj4, rj5, rj6, rj7, rj8, rj9, rj10, abs_neg] <;>\n  refl_close'
    out.append(f'theorem {n}_r (L : Int) {binders} (i : Int) :\n    {n} {" ".join(la)} i = {s}{n} {" ".join(ra)} {e} := {pf}')
    done.append(n)
out.append('end Mpdata')
open('/verif/lean/Verif/Lemmas/Refl1.lean','w').write('\n'.join(out)+'\n')
