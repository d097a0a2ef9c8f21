OUT='/verif/lean/Verif/'
# kinds -> (relation, pattern)
def K(n):
    p='⟨_, _, _⟩' if n==3 else '⟨_, _⟩'
    return {'s':('ρ','_'),'v':(f'V{n} ρ',p),'p':(f'P{n} ρ',p),'r':(f'R{n} ρ',f'⟨{p}, {p}⟩'),'b':(f'B{n} ρ',f'⟨{p}, {p}⟩'),
     'm':(f'M{n+1} ρ','h%d'),'t':(f'T{n} ρ','⟨f%d, i%d⟩'),'d':('Eq','rfl'),'e':('Eq','rfl'),'f':('(ρ ⇒ ρ)','hf')}
H={'k':'[Kept ρ]','m':'[KeptMin ρ]','d':'[KeptDiv ρ]','t':'[KeptTrig ρ]','n':''}
class Group:
    def __init__(s): s.items=[]
def rel(n,args,res):
    k=K(n); 
    rr={'s':'ρ','v':f'V{n} ρ','p':f'P{n} ρ','r':f'R{n} ρ','b':f'B{n} ρ','m':f'M{n+1} ρ','t':f'T{n} ρ','B':'Eq','d':'Eq',
     'ob':f'Option.Rel (B{n} ρ)','org':'Option.Rel (Rg ρ)','es':'Outcome ρ','em':f'Outcome (M{n+1} ρ)','et':f'Outcome (T{n} ρ)','ep':f'Outcome (P{n} ρ)',
     'size':'Both ρ ρ' if n==2 else 'Both ρ (Both ρ ρ)'}[res]
    return '('+' ⇒ '.join([k[a][0] for a in args]+[rr])+')' if args else rr
def pat(n,args):
    k=K(n); out=[];
    for i,a in enumerate(args):
        p=k[a][1]
        if '%d' in p: p=p.replace('%d',str(i))
        out+=[f'_ _ {p}' if a not in 'de' else f'd{i} _ rfl']
    return ' '.join(out)
def fn(f):
    return f'({f})' , '('+f.replace(' S)',' T)').replace(' S ',' T ').replace(': S',': T').replace('S)','T)')+')'
def lam(n,names,types,body):
    ty={'s':'S','v':f'Vector{n} S','p':f'Point{n} S','m':('Matrix3x3 S' if n==2 else 'Matrix4x4 S'),'r':f'Ray{n} S','b':f'BoundingBox{n} S','t':f'Transform{n} S'}
    a='fun '+' '.join(f'({x} : {ty[t]})' for x,t in zip(names,types))+f' => {body}'
    return '('+a+')','('+a.replace(' S)',' T)').replace('(S)','(T)')+')'
def th(n,name,hs,args,res,f,prf='para'):
    if isinstance(f,tuple): a,b=f
    else:
        a=b=f
    hyp=' '.join(H[h] for h in hs if H[h])
    st=f'{rel(n,args,res)} {a} {b}'
    intro=f'rintro {pat(n,args)}; ' if args else ''
    cs=''.join(f'cases d{i}\n  all_goals ' for i,x in enumerate(args) if x=='d' and False)
    return (f'theorem {name} {hyp} : {st} := by\n  {intro}{prf}\n', st, set(hs))
def file(n):
    V=f'Vector{n}';P=f'Point{n}';B=f'BoundingBox{n}';M='Matrix3x3' if n==2 else 'Matrix4x4';T=f'Transform{n}';D=f'Dimension{n}';R=f'Ray{n}'
    xs='xyz'[:n]
    groups={}
    out=[]
    cur=[None]
    def add(nm,hs,args,res,f,prf='para'):
        t,st,h=th(n,f'{cur[0]}.rel_{nm}',hs,args,res,f,prf)
        out.append(t); groups.setdefault(cur[0],[]).append((f'{cur[0]}.rel_{nm}',st,h))
    dims='d'*n
    if n==2:
        cur[0]='Scalar'
        add('min','m','ss','s',('(Api.min (T := S))','(Api.min (T := T))')); add('max','m','ss','s',('(Api.max (T := S))','(Api.max (T := T))'))
        add('length','k','s','s',('(Api.length (T := S))','(Api.length (T := T))'))
        for o in ('isShorterThan','isLongerThan'): add(o,'k','ss','B',(f'(RelativeLength.{o} (T := S))',f'(RelativeLength.{o} (T := T))'))
        for o in ('shortest','longest'): add(o,'k','ss','s',(f'(Api.{o} (T := S))',f'(Api.{o} (T := T))'))
        add('distance','k','ss','s',('(Api.distance (T := S))','(Api.distance (T := T))'))
        for o in ('isCloserTo','isFartherFrom'): add(o,'k','sss','B',(f'(RelativeDistance.{o} (T := S))',f'(RelativeDistance.{o} (T := T))'))
        for o in ('closest','farthest'): add(o,'k','sss','s',(f'(Api.{o} (T := S))',f'(Api.{o} (T := T))'))
    for X,c in ((V,'v'),(P,'p')):
        cur[0]=X
        add('new','n','s'*n,c,f'{X}.new'); add('fn','n','s'*n,c,f'{X[0].lower()+X[1:]}')
        if c=='v':
            add('zero','k','',c,f'{X}.zero')
            for a in xs: add(f'{a}Axis','k','',c,f'{X}.{a}Axis')
            add('axis','k','d',c,f'{X}.axis','cases d0 <;> para')
        else: add('origin','k','',c,f'{X}.origin')
        for o in 'floor ceil round trunc fract abs'.split(): add(o,'k',c,c,f'{X}.{o}')
        add('minDimension','k',c,'d',f'{X}.minDimension'); add('maxDimension','k',c,'d',f'{X}.maxDimension')
        add('index','n',c+'d','s',f'{X}.index','cases d1 <;> para')
        add('permute','n',c+dims,c,f'{X}.permute',' <;> '.join(f'cases d{i+1}' for i in range(n))+' <;> para')
        add('indexMut','n',c+'df',c,f'{X}.indexMut','cases d1\n'+'\n'.join('  · exact ⟨'+', '.join('hf ‹_›' if j==i else '‹_›' for j in range(n))+'⟩' for i in range(n)))
        add('min','m',c+c,c,'Api.min'); add('max','m',c+c,c,'Api.max')
        add('beq','k',c+c,'B',lam(n,'ab',c+c,'a == b'))
        add('neg','k',c,c,lam(n,'a',c,'-a'))
        add('mul','k',c+'s',c,lam(n,'as',c+'s','a * s')); add('smul','k','s'+c,c,lam(n,'sa','s'+c,'s * a'))
        add('div','kd',c+'s',c,lam(n,'as',c+'s','a / s'))
        add('mulAssign','k',c+'s',c,f'{X}.mulAssign'); add('divAssign','kd',c+'s',c,f'{X}.divAssign')
        add('add','k',c+'v',c,lam(n,'av',c+'v','a + v')); add('sub','k',c+'v',c,lam(n,'av',c+'v','a - v'))
        add('addAssign','k',c+'v',c,f'{X}.addAssign'); add('subAssign','k',c+'v',c,f'{X}.subAssign')
        if c=='v':
            add('dot','k','vv','s','Api.dot'); add('length','k','v','s','Api.length')
            if n==3: add('cross','k','vv','v','Api.cross')
            add('isShorterThan','k','vv','B','RelativeLength.isShorterThan'); add('isLongerThan','k','vv','B','RelativeLength.isLongerThan')
            add('shortest','k','vv','v','Api.shortest'); add('longest','k','vv','v','Api.longest')
            add('fromPoint','n','p','v',f'{V}.fromPoint'); add('normalize','kd','v','v',f'{V}.normalize')
        else:
            add('diff','k','pp','v',lam(n,'ab','pp','a - b')); add('fromVector','n','v','p',f'{P}.fromVector')
            add('distance','k','pp','s','Api.distance')
            add('isCloserTo','k','ppp','B','RelativeDistance.isCloserTo'); add('isFartherFrom','k','ppp','B','RelativeDistance.isFartherFrom')
            add('closest','k','ppp','p','Api.closest'); add('farthest','k','ppp','p','Api.farthest')
    cur[0]=R
    add('new','n','pv','r',f'{R}.new'); add('fn','n','pv','r',R.lower()); add('at','k','rs','p',f'{R}.at'); add('beq','k','rr','B',lam(n,'ab','rr','a == b'))
    cur[0]=B
    add('new','m','pp','b',f'{B}.new'); add('empty','k','','b',f'{B}.empty'); add('infinite','k','','b',f'{B}.infinite')
    ms=['width','height']+(['depth','surfaceArea','volume'] if n==3 else ['area'])
    for m in ms: add(m,'k','b','s',f'{B}.{m}')
    add('size','k','b','size',f'{B}.size'); add('extent','k','bd','s',f'{B}.extent','cases d1 <;> para')
    add('diagonal','k','b','v',f'{B}.diagonal'); add('minDimension','k','b','d',f'{B}.minDimension'); add('maxDimension','k','b','d',f'{B}.maxDimension')
    add('center','k','b','p',f'{B}.center'); add('overlaps','k','bb','B',f'{B}.overlaps'); add('isInside','k','bp','B',f'{B}.isInside')
    add('corner','n','bee','ep',f'{B}.corner',f'unfold {B}.corner; split\n  · exact .error _\n  · refine .ok ?_; para')
    add('beq','k','bb','B',lam(n,'ab','bb','a == b'))
    add('union','m','bb','b',lam(n,'ab','bb','Api.union a b')); add('unionPoint','m','bp','b',lam(n,'ap','bp','Api.union a p'))
    nest='⟨⟨h%d, _, _⟩, ⟨_, _, _⟩⟩'
    add('intersect','km','bb','ob',lam(n,'ab','bb','Api.intersect a b'),f'exact ite_rel (by para) (.some (by para)) .none')
    iff={2:'refine ite_rel (by para) .none (ite_rel (by para) (.some (by para)) .none)',3:'refine ite_rel (by para) .none (ite_rel (by para) .none (ite_rel (by para) (.some (by para)) .none))'}[n]
    add('intersectRay','kmd','br','org',lam(n,'ar','br','Api.intersect a r'),iff)
    iff2=iff.replace('refine ','exact ')
    a_,b_=lam(n,'ar','br','Api.intersect a r')
    hyp=''.join(f"\n  have {c}1 := hs _ _ (KeptDiv.div (Kept.sub l{c} o{c}) d{c})\n  have {c}2 := hs _ _ (KeptDiv.div (Kept.sub t{c} o{c}) d{c})" for c in xs)
    tup=lambda k:'⟨'+', '.join(k+c for c in xs)+'⟩'
    out[-1]=f'''theorem {B}.rel_intersectRay' {{σ : S → T → Prop}} [Kept ρ] [KeptDiv ρ] [Kept σ] [KeptMin σ] (hs : ∀ a b, ρ a b → σ a b) :
    (B{n} ρ ⇒ R{n} ρ ⇒ Option.Rel (Rg σ)) {a_} {b_} := by
  rintro _ _ ⟨{tup('l')}, {tup('t')}⟩ _ _ ⟨{tup('o')}, {tup('d')}⟩{hyp}
  {iff2}
theorem {B}.rel_intersectRay [Kept ρ] [KeptMin ρ] [KeptDiv ρ] :
    (B{n} ρ ⇒ R{n} ρ ⇒ Option.Rel (Rg ρ)) {a_} {b_} := rel_intersectRay' fun _ _ h => h
'''
    cur[0]=M; m=n+1; N=m*m
    mk=f'refine M{m}.mk '+' '.join(['?_']*N)
    add('new','n','',None,None) if False else None
    add('identity','k','','m',f'{M}.identity',mk+' <;> para'); add('translate','k','v','m',f'{M}.translate',mk+' <;> para')
    if n==2: add('rotate','kt','s','m',f'{M}.rotate',mk+' <;> para')
    else:
        for a in 'XYZ': add(f'rotate{a}','kt','s','m',f'{M}.rotate{a}',mk+' <;> para')
        add('rotateAxis','kdt','vs','m',f'{M}.rotateAxis',mk+' <;> para')
        add('inverseLookAt','kd','ppv','m',f'{M}.inverseLookAt','')
        out[-1]=out[-1].split(':= by')[0]+''':= by
  intro o o' ho t t' ht u u' hu
  have hd := Vector3.rel_normalize (Point3.rel_diff ht ho)
  have hr := Vector3.rel_normalize (Vector3.rel_cross (Vector3.rel_normalize hu) hd)
  have hn := Vector3.rel_cross hd hr
  exact M4.mk hr.1 hn.1 hd.1 ho.1 hr.2.1 hn.2.1 hd.2.1 ho.2.1 hr.2.2 hn.2.2 hd.2.2 ho.2.2 Kept.zero Kept.zero Kept.zero Kept.one
'''
    add('scale','k','s'*n,'m',f'{M}.scale',mk+' <;> para'); add('scaleUniform','k','s','m',f'{M}.scaleUniform',mk+' <;> para')
    bind=f'unfold {M}.%s\n  rcases {M}.linearIndex d1 d2 d3 with e | k\n  · exact .error _\n  · show Outcome _ (dite _ _ _) (dite _ _ _)\n    by_cases hk : k < {N}\n    · rw [dif_pos hk, dif_pos hk]; exact .ok %s\n    · rw [dif_neg hk, dif_neg hk]; exact .error _'
    add('get','n','meee','es',f'{M}.get',bind%('get','(h0 k hk)'))
    setp='(by\n        intro j hj\n        show ρ (Vector.set _ k _ hk)[j] (Vector.set _ k _ hk)[j]\n        rw [Vector.getElem_set, Vector.getElem_set]\n        by_cases e : k = j\n        · rw [if_pos e, if_pos e]; %s\n        · rw [if_neg e, if_neg e]; exact h0 j hj)'
    add('set','n','meees','em',f'{M}.set',bind%('set',setp%'assumption'))
    add('getMut','n','meeef','em',f'{M}.getMut',bind%('getMut',setp%'exact hf (h0 k hk)'))
    add('transpose','n','m','m',f'{M}.transpose',mk+' <;> exact h0 _ _')
    ofn='intro k hk\n  show ρ (Vector.ofFn _)[k] (Vector.ofFn _)[k]\n  rw [Vector.getElem_ofFn, Vector.getElem_ofFn]\n  exact %s (h%d _ _) ‹_›'
    add('mul_scalar','k','ms','m',lam(n,'as','ms','a * s'),ofn%('Kept.mul',0)); add('scalar_mul','k','sm','m',lam(n,'sa','sm','s * a'),ofn%('Kept.mul',1))
    add('div_scalar','d','ms','m',lam(n,'as','ms','a / s'),ofn%('KeptDiv.div',0))
    mapp='intro k hk\n  show ρ (Vector.map _ _)[k] (Vector.map _ _)[k]\n  rw [Vector.getElem_map, Vector.getElem_map]\n  exact %s (h0 _ _) ‹_›'
    add('mulAssign','k','ms','m',f'{M}.mulAssign',mapp%'Kept.mul'); add('divAssign','d','ms','m',f'{M}.divAssign',mapp%'KeptDiv.div')
    add('mul_point','kd','mp','p',lam(n,'ap','mp','a * p'),'param h0 h0'); add('point_mul','kd','pm','p',lam(n,'pa','pm','p * a'),'param h1 h1')
    add('mul_vector','k','mv','v',lam(n,'av','mv','a * v'),'param h0 h0'); add('vector_mul','k','vm','v',lam(n,'va','vm','v * a'),'param h1 h1')
    add('mul','k','mm','m',lam(n,'ab','mm','a * b'),mk+' <;> param h0 h1')
    ba='\n  '.join([])
    conj='refine '+'and_rel ('*0
    add('beq','k','mm','B',lam(n,'ab','mm','a == b'),'param h0 h1')
    inv_n='have hd : %s := by %s\n  show Outcome _ (if !(_ == _) then _ else _) (if !(_ == _) then _ else _)\n  exact ite_rel (not_rel (Kept.beq (ρ := ρ) hd Kept.zero)) (.ok (%s)) (.error _)'
    if n==2:
        add('inverse','kd','m','em',f'{M}.inverse',inv_n%('ρ (Matrix3x3.det _) (Matrix3x3.det _)','param h0 h0',f'by {mk} <;> param h0 h0'))
        out[-1]=out[-1].replace('rintro _ _ h0','rintro a b h0').replace('(Matrix3x3.det _) (Matrix3x3.det _)','a.det b.det')
    else:
        out.append('''theorem Matrix4x4.rel_cofactor [Kept ρ] {a : Matrix4x4 S} {b : Matrix4x4 T} (h0 : M4 ρ a b) (i j : Fin 4) :
    ρ (a.cofactor i j) (b.cofactor i j) := by
  have hs : ∀ r c, ρ (a.sub i j r c) (b.sub i j r c) := fun r c => h0 _ _
  have one' : ρ (if (i.val + j.val) % 2 == 0 then one else -one) (if (i.val + j.val) % 2 == 0 then one else -one) :=
    ite_rel rfl Kept.one (Kept.neg Kept.one)
  exact Kept.mul one' (Kept.sub (Kept.sub (Kept.sub (Kept.add (Kept.add (Kept.mul (Kept.mul (hs _ _) (hs _ _)) (hs _ _))
    (Kept.mul (Kept.mul (hs _ _) (hs _ _)) (hs _ _))) (Kept.mul (Kept.mul (hs _ _) (hs _ _)) (hs _ _)))
    (Kept.mul (Kept.mul (hs _ _) (hs _ _)) (hs _ _))) (Kept.mul (Kept.mul (hs _ _) (hs _ _)) (hs _ _)))
    (Kept.mul (Kept.mul (hs _ _) (hs _ _)) (hs _ _)))
theorem Matrix4x4.rel_adjugate [Kept ρ] {a : Matrix4x4 S} {b : Matrix4x4 T} (h0 : M4 ρ a b) : M4 ρ a.adjugate b.adjugate := by
  have hc := Matrix4x4.rel_cofactor h0
  '''+mk+''' <;> exact hc _ _
''')
        add('inverse','kd','m','em',f'{M}.inverse','')
        out[-1]=out[-1].rstrip().replace('rintro _ _ h0;','rintro a b h0')+'''
  have ha := Matrix4x4.rel_adjugate h0
  have hd : ρ (a.detOf a.adjugate) (b.detOf b.adjugate) := by
    unfold Matrix4x4.detOf
    param h0 ha
  exact ite_rel (not_rel (Kept.beq (ρ := ρ) hd Kept.zero)) (.ok (Matrix4x4.rel_div_scalar ha hd)) (.error _)
'''
    cur[0]=T
    MR=f'{M}.rel_'
    add('new','n','mm','t',f'{T}.new','exact ⟨h0, h1⟩'); add('identity','k','','t',f'{T}.identity',f'exact ⟨{MR}identity, {MR}identity⟩')
    out2=[]
    add('translate','k','v','t',f'{T}.translate',f'exact ⟨{MR}translate hv, {MR}translate ({V}.rel_neg hv)⟩')
    out[-1]=out[-1].replace('rintro _ _ ⟨_, _, _⟩;','rintro _ _ hv;').replace('rintro _ _ ⟨_, _⟩;','rintro _ _ hv;')
    if n==2: rots=[('rotate','kt','s')]
    else: rots=[(f'rotate{a}','kt','s') for a in 'XYZ']
    for r,hs,a in rots:
        add(r,hs,a,'t',f'{T}.{r}',f'exact ⟨{MR}{r} ‹_›, {MR}transpose ({MR}{r} ‹_›)⟩')
    if n==3:
        add('rotateAxis','kdt','vs','t',f'{T}.rotateAxis',f'exact ⟨{MR}rotateAxis hv ‹_›, {MR}transpose ({MR}rotateAxis hv ‹_›)⟩')
        out[-1]=out[-1].replace('rintro _ _ ⟨_, _, _⟩','rintro _ _ hv')
    ss=' '.join(f's{i}' for i in range(n)); rs=' '.join(f'(KeptDiv.div Kept.one s{i})' for i in range(n))
    add('scale','kd','s'*n,'t',f'{T}.scale',f'exact ⟨{MR}scale {ss}, {MR}scale {rs}⟩')
    for i in range(n): out[-1]=out[-1].replace('_ _ _',f'_ _ s{i}',1) 
    add('scaleUniform','kd','s','t',f'{T}.scaleUniform',f'exact ⟨{MR}scaleUniform s0, {MR}scaleUniform (KeptDiv.div Kept.one s0)⟩')
    out[-1]=out[-1].replace('_ _ _','_ _ s0',1)
    if n==3:
        add('lookAt','kd','ppv','et',f'{T}.lookAt','')
        out[-1]=out[-1].split(':= by')[0]+''':= by
  intro o o' ho t t' ht u u' hu
  have hi := Matrix4x4.rel_inverseLookAt ho ht hu
  have := Matrix4x4.rel_inverse hi
  simp only [Transform3.lookAt]
  revert this
  generalize (Matrix4x4.inverseLookAt o t u).inverse = x
  generalize (Matrix4x4.inverseLookAt o' t' u').inverse = y
  rintro (e | h)
  · exact .error _
  · exact .ok ⟨h, hi⟩
'''
    add('tryFrom','kd','m','et',f'{T}.tryFrom','')
    out[-1]=out[-1].split(':= by')[0]+f''':= by
  intro a b h
  have := {MR}inverse h
  unfold {T}.tryFrom
  revert this
  generalize {M}.inverse a = x
  generalize {M}.inverse b = y
  rintro (e | h')
  · exact .error _
  · exact .ok ⟨h, h'⟩
'''
    add('andThen','k','tt','t',f'{T}.andThen',f'exact ⟨{MR}mul f1 f0, {MR}mul i0 i1⟩')
    add('inv','n','t','t',f'{T}.inv','exact ⟨i0, f0⟩')
    add('beq','k','tt','B',lam(n,'ab','tt','a == b'),f'exact and_rel ({MR}beq f0 f1) ({MR}beq i0 i1)')
    def tr(x,c): return f'(fun (t : {T} S) (a : {x} S) => Transform.transform t a)',f'(fun (t : {T} T) (a : {x} T) => Transform.transform t a)'
    for nm,x,c,prf in (('point',P,'p',f'exact {MR}mul_point f0 ha'),('vector',V,'v',f'exact {MR}mul_vector f0 ha'),('ray',R,'r',f'exact ⟨{MR}mul_point f0 ha.1, {MR}mul_vector f0 ha.2⟩')):
        add('transform_'+nm,'k' if c=='v' else 'kd','t'+c,c,tr(x,c),prf)
        a,b=out[-1].split('rintro'); out[-1]=a+'rintro _ _ ⟨f0, i0⟩ _ _ ha; '+prf+'\n'
    N2=2**n
    cs={2:['0b01','0b10'],3:['0b001','0b010','0b100']}[n]
    bc=' <;> '.join(f'by_cases c{k} : (i &&& {c} != 0) = true' for k,c in enumerate(cs))
    cl=', '.join(f'c{k}' for k in range(n))
    tt=tr(B,'b')
    L=', '.join(str(k) for k in range(1,N2))
    stp=f'''theorem {T}.rel_boxStep [Kept ρ] [KeptMin ρ] {{o : {P} S}} {{o' : {P} T}} {{d : {V} S}} {{d' : {V} T}} (ho : P{n} ρ o o') (hd : V{n} ρ d d')
    {{a : {P} S × {P} S}} {{a' : {P} T × {P} T}} (ha : Both (P{n} ρ) (P{n} ρ) a a') (i : Nat) :
    Both (P{n} ρ) (P{n} ρ) ({T}.boxStep o d a i) ({T}.boxStep o' d' a' i) := by
  have hc : P{n} ρ ({T}.boxCorner o d i) ({T}.boxCorner o' d' i) := by
    unfold {T}.boxCorner
    obtain ⟨_, _{', _' if n==3 else ''}⟩ := ho; obtain ⟨_, _{', _' if n==3 else ''}⟩ := hd
    {bc} <;>
      simp only [{cl}, if_true, if_false, Bool.false_eq_true] <;> para
  exact ⟨{P}.rel_min ha.1 hc, {P}.rel_max ha.2 hc⟩
theorem {T}.rel_transform_box' {{σ : S → T → Prop}} [Kept ρ] [KeptDiv ρ] [Kept σ] [KeptMin σ] (hs : ∀ a b, ρ a b → σ a b) :
    (T{n} ρ ⇒ B{n} ρ ⇒ B{n} σ) {tt[0]} {tt[1]} := by
  rintro t t' ht b b' hb
  have ho := {T}.rel_transform_point ht hb.1
  have hd := {T}.rel_transform_vector ht ({B}.rel_diagonal hb)
  have ho' : P{n} σ (Transform.transform t b.min) (Transform.transform t' b'.min) := {'⟨hs _ _ ho.1, hs _ _ ho.2⟩' if n==2 else '⟨hs _ _ ho.1, hs _ _ ho.2.1, hs _ _ ho.2.2⟩'}
  have hd' : V{n} σ (Transform.transform t b.diagonal) (Transform.transform t' b'.diagonal) := {'⟨hs _ _ hd.1, hs _ _ hd.2⟩' if n==2 else '⟨hs _ _ hd.1, hs _ _ hd.2.1, hs _ _ hd.2.2⟩'}
  have hl : ∀ (l : List Nat) (a : {P} S × {P} S) (a' : {P} T × {P} T), Both (P{n} σ) (P{n} σ) a a' →
      Both (P{n} σ) (P{n} σ) (l.foldl ({T}.boxStep (Transform.transform t b.min) (Transform.transform t b.diagonal)) a)
        (l.foldl ({T}.boxStep (Transform.transform t' b'.min) (Transform.transform t' b'.diagonal)) a') := by
    intro l
    induction l with
    | nil => exact fun _ _ h => h
    | cons i l ih => exact fun a a' h => ih _ _ ({T}.rel_boxStep ho' hd' h i)
  have := hl [{L}] (_, _) (_, _) ⟨ho', ho'⟩
  exact {B}.rel_new this.1 this.2
theorem {T}.rel_transform_box [Kept ρ] [KeptMin ρ] [KeptDiv ρ] : (T{n} ρ ⇒ B{n} ρ ⇒ B{n} ρ) {tt[0]} {tt[1]} :=
  rel_transform_box' fun _ _ h => h
'''
    # the loop body's corner, named for the proof
    if n==2:
        pre='''/-- The point the loop body adds (src/transform2.rs:395-398), named for the proof. -/
def Transform2.boxCorner {S : Type} [Scalar S] (o : Point2 S) (d : Vector2 S) (i : Nat) : Point2 S :=
  let corner := o
  let corner := if i &&& 0b01 != 0 then { corner with x := corner.x + d.x } else corner
  if i &&& 0b10 != 0 then { corner with y := corner.y + d.y } else corner
'''
    else:
        pre='''/-- The point the loop body adds (src/transform3.rs:516-519), named for the proof. -/
def Transform3.boxCorner {S : Type} [Scalar S] (o : Point3 S) (d : Vector3 S) (i : Nat) : Point3 S :=
  let corner := o
  let corner := if i &&& 0b001 != 0 then { corner with x := corner.x + d.x } else corner
  let corner := if i &&& 0b010 != 0 then { corner with y := corner.y + d.y } else corner
  if i &&& 0b100 != 0 then { corner with z := corner.z + d.z } else corner
'''
    out.append(pre+stp)
    groups[T].append((f'{T}.rel_transform_box',f'(T{n} ρ ⇒ B{n} ρ ⇒ B{n} ρ) {tt[0]} {tt[1]}',set('kmd')))
    open('/dev/null','w')
    return out,groups,stp
HEAD='''import Verif.Lemmas.Param
/-! # C115: every function of the crate keeps every relation that the scalar operations keep ({n}D) -/

namespace VecMath
open Scalar Relator
set_option linter.unusedSectionVars false
set_option linter.unusedVariables false
section
variable {{S T : Type}} [Scalar S] [Scalar T] {{ρ : S → T → Prop}}

'''
for n in (2,3):
    out,groups,stp=file(n)
    s=HEAD.format(n=n)+''.join(out)
    s+='end\n\nend VecMath\n'
    open(OUT+f'Props/Param{n}.lean','w').write(s)
    import json
    json.dump({k:[(a,b,sorted(c)) for a,b,c in v] for k,v in groups.items()},open(f'/tmp/d/p115/groups{n}.json','w'),ensure_ascii=False,indent=1)
