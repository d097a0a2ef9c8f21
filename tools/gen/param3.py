import json
OUT='/verif/lean/Verif/'
H={'k':'[Kept ρ]','m':'[KeptMin ρ]','d':'[KeptDiv ρ]','t':'[KeptTrig ρ]'}
SUF={'k':'','km':'_min','dk':'_div','dkm':'_divmin','kt':'_trig','dkt':'_axis'}
what={'Scalar':'scalars','Vector':'vectors','Point':'points','Ray':'rays','BoundingBox':'boxes','Matrix3x3':'3×3 matrices','Matrix4x4':'4×4 matrices','Transform':'transforms'}
s='''import Verif.Props.Param2
import Verif.Props.Param3
/-!
# C115: every function of the crate keeps every relation that the scalar operations keep

One theorem per type and set of scalar operations used. Each conjunct is one function of the crate: related arguments give related
results. Nothing is assumed about the scalars.
-/

namespace VecMath
open Scalar Relator
set_option linter.unusedSectionVars false
variable {S T : Type} [Scalar S] [Scalar T] {ρ : S → T → Prop}

'''
names=[]
for n in (2,3):
    g=json.load(open(f'/tmp/d/p115/groups{n}.json'))
    for k,v in g.items():
        by={}
        for nm,st,h in v:
            hh=set(h)-{'n'}; hh|={'k'}
            by.setdefault(''.join(sorted(hh)),[]).append((nm,st))
        for hs in sorted(by,key=lambda x:(len(x),x)):
            it=by[hs]
            nm='C115_'+k[0].lower()+k[1:]+SUF[hs]
            names.append(nm)
            base=[w for q,w in what.items() if k.startswith(q)][0]
            extra={'k':'','km':', using `min` and `max`','dk':', using division','dkm':', using division, `min` and `max`','kt':', using `sin` and `cos`','dkt':', using division, `sin` and `cos`'}[hs]
            s+=f"/-- The functions on {base}{extra}{'' if k[-1] not in '23' or k[0]=='M' else f' ({k[-1]}D)'}. -/\ntheorem {nm} [Kept ρ] {' '.join(H[c] for c in 'mdt' if c in hs)} :\n    "+' ∧\n    '.join(st for _,st in it)+' :=\n  '+('⟨'+', '.join(x for x,_ in it)+'⟩' if len(it)>1 else it[0][0])+'\n'
s+='\nend VecMath\n'
open(OUT+'Props/ParamAll.lean','w').write(s)
json.dump(names,open('/tmp/d/p115/names.json','w'))
print(names)
