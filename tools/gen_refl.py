import re
def gen(dim):
    D=dim
    model=open(f'/verif/lean/Verif/Model/Antidiff{D}.lean').read()
    # parse definitions in order
    defs=re.findall(r'^def (\w+) (.*?) : K :=', model, re.M|re.S)
    names=[n for n,_ in defs]
    # location (per direction) and parity
    f2={
    'gF':('cc','++'),'gBarX':('fc','++'),'gBarXY':('ff','++'),'gc0BarX':('cc','-+'),'gc0BarXY':('cf','-+'),'gc1BarX':('ff','+-'),'gc1BarXY':('fc','+-'),
    'ndxGC0':('fc','++'),'psiBarX':('fc','++'),'psiBarY':('cf','++'),'psiBarXY':('ff','++'),'ndxxGC0':('fc','-+'),'ndttGC0':('fc','-+'),
    'ndxPsi':('fc','-+'),'ndyPsi':('fc','+-'),'ndxxPsi':('fc','++'),'ndxyPsi':('fc','--'),'ndxxxPsi':('fc','-+'),'ndxxyPsi':('fc','+-'),'ndxyyPsi':('fc','-+'),
    'ndtxPsi':('fc','-+'),'ndtPsi':('fc','++'),'fdivCentre':('cc','++'),'fdivCornerXY':('ff','++'),'nfdiv':('fc','++'),'sum8_':('fc','++'),'nfdivFdiv':('fc','++'),
    'ndxFdiv':('fc','-+'),'nfdivDt':('fc','++'),'ndxxPsiCoeff':('fc','-+'),'ndxyPsiCoeff':('fc','+-'),'tot':('fc','-+'),'ndxxxPsiCoeff':('fc','++'),
    'ndxxyPsiCoeff':('fc','--'),'ndxyyPsiCoeff':('fc','++'),'fot':('fc','-+'),'dfl':('fc','-+'),'div2nd':('fc','-+'),'div3rdUpwind':('fc','-+'),
    'div3rdTemporal':('fc','-+'),'div3rdSpatialHelper':('fc','-+'),'div3rdSpatial':('fc','-+'),'div3rd':('fc','-+'),'antidiff':('fc','-+')}
    f3=dict((k,(v[0]+'c',v[1]+'+')) for k,v in f2.items())
    f3.update({'gBarXZ':('fcf','+++'),'gc0BarXZ':('ccf','-++'),'gc1BarXZ':('fff','+-+'),'gc2BarX':('fcf','++-'),'gc2BarXZ':('fcc','++-'),'gc2BarXY':('fff','++-'),
    'psiBarZ':('ccf','+++'),'psiBarXZ':('fcf','+++'),'psiBarXYZ':('fff','+++'),'ndzPsi':('fcc','++-'),'ndxzPsi':('fcc','-+-'),'ndyzPsi':('fcc','+--'),
    'fdivCornerXZ':('fcf','+++'),'sum10_':('fcc','+++'),'sum12_':('fcc','+++'),'ndxzPsiCoeff':('fcc','++-'),'ndyzPsiCoeff':('fcc','---')})
    tab=f2 if D==2 else f3
    ax='xyz'[:D]; ix='ijk'[:D]
    out=[]
    out.append(f'''import Verif.Model.Antidiff{D}
import Verif.Lemmas.Refl
/-! # Mirror symmetry of the {D}-D antidiffusive velocities
Generated table: how each formula changes when its arguments are reflected in one direction. `c{D}x a` is the array `a` of cell values reflected about the face 1/2
in the direction of the velocity, `f{D}x` the reflected and negated array of face values; `c{D}y`, ... are reflections in transverse directions, about cell 0. -/
set_option linter.unusedSectionVars false
set_option linter.unusedSimpArgs false
set_option linter.unusedTactic false
set_option linter.unreachableTactic false
set_option linter.unnecessarySeqFocus false
namespace Mpdata
variable {{K : Type}} [Field K] [LinearOrder K]
''')
    for d,a in enumerate(ax):
        idx=' '.join(ix)
        def at(e): 
            l=[c for c in ix]; l[d]=e; return ' '.join(l)
        cexp='(-%s + 1)'%ix[d] if d==0 else '(-%s)'%ix[d]
        fexp='(-%s)'%ix[d] if d==0 else '(-%s - 1)'%ix[d]
        out.append(f'def c{D}{a} (a : Ar{D} K) : Ar{D} K := fun {idx} => a {at(cexp)}')
        out.append(f'def f{D}{a} (a : Ar{D} K) : Ar{D} K := fun {idx} => -a {at(fexp)}')
        out.append(f'theorem c{D}{a}_at (a : Ar{D} K) ({idx} : Int) : c{D}{a} a {idx} = a {at(cexp)} := rfl')
        out.append(f'theorem f{D}{a}_at (a : Ar{D} K) ({idx} : Int) : f{D}{a} a {idx} = -a {at(fexp)} := rfl')
    comp={'ga':0,'gb':1,'gc':2,'nda':0,'ndb':1,'ndc':2,'ndtt':0}
    done=[]
    for n,sig in defs:
        if n in ('vabs',): continue
        base=n[:-1]
        if base not in tab: print('missing',n); continue
        loc,par=tab[base]
        # args
        groups=re.findall(r'\(([^:()]*) : ([^()]*)\)', sig)
        args=[]
        for g,t in groups:
            for v in g.split(): args.append((v,t.strip()))
        binders=' '.join(f'({v} : {t})' for v,t in args if v not in ix)
        idx=' '.join(ix)
        for d,a in enumerate(ax):
            la=[]; ra=[]
            for v,t in args:
                if v in ix: continue
                if t.startswith('Ar'):
                    if v in comp and comp[v]==d: la.append(f'(f{D}{a} {v})')
                    else: la.append(f'(c{D}{a} {v})')
                else: la.append(v)
                ra.append(v)
            l=[c for c in ix]
            if d==0: e='(-%s)'%ix[d] if loc[d]=='f' else '(-%s + 1)'%ix[d]
            else: e='(-%s - 1)'%ix[d] if loc[d]=='f' else '(-%s)'%ix[d]
            l[d]=e
            s='-' if par[d]=='-' else ''
            lems=', '.join([f'{m}_r{a}' for m in done if re.search(r'\b'+m+r'\b', model[model.index(f'def {n} '):].split('\n/--')[0])])
            if n.startswith('div3rdTemporal') or n.startswith('div3rdSpatialHelper'):
                v='te' if 'Temporal' in n else 'si'
                pf=f'by\n  cases {v} <;> simp only [{n}, {lems}] <;> refl_close'
            else:
                pf=f'by\n  simp only [{n}, {lems+", " if lems else ""}c{D}{a}_at, f{D}{a}_at, ri1, ri2, ri3, ri4, ri5, ri6, ri7, ri8, ri9, ri10, ri11, abs_neg] <;>\n  refl_close'
            out.append(f'theorem {n}_r{a} {binders} ({idx} : Int) :\n    {n} {" ".join(la)} {idx} = {s}{n} {" ".join(ra)} {" ".join(l)} := {pf}')
        done.append(n)
    out.append('end Mpdata')
    open(f'/verif/lean/Verif/Lemmas/Refl{D}.lean','w').write('\n'.join(out)+'\n')
gen(2); gen(3)
