# Generates Verif/Props/FloatCorners.lean
def gen(D):
    M = {2:'Matrix3x3',3:'Matrix4x4'}[D]; N={2:9,3:16}[D]; n=D+1
    T=f'Transform{D}'; B=f'BoundingBox{D}'; P=f'Point{D}'; V=f'Vector{D}'; R=f'Ray{D}'
    ax='xyz'[:D]
    ks=list(range(2**D))
    last={2:'![0, 0, 1]',3:'![0, 0, 0, 1]'}[D]
    idx=lambda r,c: r*n+c
    def row(r,f): return ' + '.join([f't.forward.m[{idx(r,j)}] * {f(ax[j])}' for j in range(D)]+[f't.forward.m[{idx(r,D)}]'])
    corner=lambda k: '⟨'+', '.join(f'b.{"max" if k>>j&1 else "min"}.{ax[j]}' for j in range(D))+'⟩'
    o=[]
    a=o.append
    pj=lambda j: ('.2'*j)+('.1' if j<D-1 else '')
    le=lambda j: 'wb'+('.2'*j)+('.1' if j<D-1 else '')
    extra=''.join(f'\n    | exact ⟨le_self (le_iff.1 {le(j)}).1, {le(j)}⟩\n    | exact ⟨{le(j)}, le_self (le_iff.1 {le(j)}).2.1⟩' for j in range(1,D))
    a(f'''
/-! ## {D}D -/

/-- the computed images of the corners, in the order of their numbers -/
def corners{D} (t : {T} S) (b : {B} S) : List ({P} S) :=
  ([{', '.join(corner(k) for k in ks)}] : List ({P} S)).map fun c => Transform.transform t c

omit [IEEE S] in
theorem corner_ok{D} (build : Build) (b : {B} S) :
    {' ∧ '.join(f'b.corner build {k} = .ok {corner(k)}' for k in ks)} := by
  cases build <;> exact ⟨{', '.join('rfl' for k in ks)}⟩
omit [IEEE S] in
theorem around_eq{D} (t : {T} S) (build : Build) (b : {B} S) :
    t.around build b = .ok ((corners{D} t b).foldl (fun acc p => Api.union acc p) {B}.empty) := by
  obtain ⟨{', '.join(f'h{k}' for k in ks)}⟩ := corner_ok{D} build b
  unfold {T}.around corners{D}
  simp only [List.mapM_cons, List.mapM_nil, {', '.join(f'h{k}' for k in ks)}]
  rfl
omit [IEEE S] in
theorem corners_iff{D} (t : {T} S) (build : Build) (b : {B} S) (Q : {P} S → Prop) :
    (∀ k : UInt32, k < {2**D} → ∀ c, b.corner build k = .ok c → Q (Transform.transform t c : {P} S)) ↔ ∀ q ∈ corners{D} t b, Q q := by
  obtain ⟨{', '.join(f'h{k}' for k in ks)}⟩ := corner_ok{D} build b
  constructor
  · intro h
    simp only [corners{D}, List.map_cons, List.map_nil, List.forall_mem_cons, List.not_mem_nil, IsEmpty.forall_iff, implies_true, and_true]
    exact ⟨{', '.join(f'h {k} (by decide) _ h{k}' for k in ks)}⟩
  · intro h k hk c hc
    have hk' : {' ∨ '.join(f'k = {k}' for k in ks)} := by
      have : k.toNat < {2**D} := hk
      have e : k = UInt32.ofNat k.toNat := by simp
      generalize k.toNat = m at *
      subst e
      interval_cases m <;> simp
    simp only [corners{D}, List.map_cons, List.map_nil, List.forall_mem_cons, List.not_mem_nil, IsEmpty.forall_iff, implies_true, and_true] at h
    rcases hk' with {' | '.join('rfl' for k in ks)}''')
    for k in ks:
        acc = 'h'+'.2'*k+('.1' if k<len(ks)-1 else '')
        a(f'    · rw [h{k}] at hc; cases hc; exact {acc}')
    a(f'''
/-- the corners are in the box -/
theorem corner_inside{D} (build : Build) (b : {B} S) (wb : LeAll b.min b.max) {{k : UInt32}} {{c : {P} S}}
    (hk : k < {2**D}) (hc : b.corner build k = .ok c) : b.isInside c = true := by
  rw [{P}.leAll] at wb
  unfold {B}.corner at hc
  split_ifs at hc <;> cases hc <;> rw [isInside{D}_iff] <;> simp only [{P}.new] <;>
    refine ⟨{', '.join('?_' for _ in range(D))}⟩ <;>
    first
    | exact ⟨le_self (le_iff.1 wb.1).1, wb.1⟩
    | exact ⟨wb.1, le_self (le_iff.1 wb.1).2.1⟩{extra}''')
    fins=[f'h{i}' for i in range(N)]
    a(f'''
/-- **C95** (key): the computed image of a point of the box is, coordinate by coordinate, a number between two of the
computed images of the corners. -/
theorem image_between{D} (t : {T} S) (b : {B} S) (p : {P} S) (ht : AllFinite t.forward)
    (haff : t.forward.toReal {D} = {last}) (hb : AllFinite b) (hn : ∀ q ∈ corners{D} t b, NoNaN q)
    (hp : b.isInside p = true) :''')
    for j,x in enumerate(ax):
        a(f'''    ((∃ q ∈ corners{D} t b, (q.{x} ≤? (Transform.transform t p : {P} S).{x}) = true) ∧
      (∃ q ∈ corners{D} t b, ((Transform.transform t p : {P} S).{x} ≤? q.{x}) = true))'''+(' ∧' if j<D-1 else ' := by'))
    a(f'''  rw [{B}.allFinite, {P}.allFinite, {P}.allFinite] at hb
  rw [isInside{D}_iff] at hp
  rw [{M}.allFinite, forall_lt_{N}] at ht
  obtain ⟨{', '.join(fins)}⟩ := ht
  obtain ⟨⟨{', '.join('l'+x for x in ax)}⟩, {', '.join('u'+x for x in ax)}⟩ := hb
  obtain ⟨{', '.join('p'+x for x in ax)}⟩ := hp''')
    for x in ax:
        a(f'''  have f{x} : IsFinite p.{x} := finite_btw l{x} u{x} p{x}.1 p{x}.2
  have r{x} : real b.min.{x} ≤ real p.{x} ∧ real p.{x} ≤ real b.max.{x} := by
    have h1 := (le_iff.1 p{x}.1).2.2
    have h2 := (le_iff.1 p{x}.2).2.2
    rw [l{x}.val, f{x}.val, EReal.coe_le_coe_iff] at h1
    rw [u{x}.val, f{x}.val, EReal.coe_le_coe_iff] at h2
    exact ⟨h1, h2⟩''')
    lastrow=[f'h{idx(D,j)}' for j in range(n)]
    a(f'''  have W : ∀ {{{' '.join(ax)} : S}}, {' → '.join(f'IsFinite {x}' for x in ax)} → num ({' + '.join([f't.forward.m[{idx(D,j)}] * {ax[j]}' for j in range(D)]+[f't.forward.m[{idx(D,D)}]'])}) = num (one : S) :=
    fun {{{' '.join(ax)}}} {' '.join('g'+x for x in ax)} => weight_one{D} {' '.join(lastrow)} {' '.join('g'+x for x in ax)} {' '.join(f'(congrFun haff {j})' for j in range(n))}
  have key : ∀ {{v w : S}}, num w = num (one : S) → (IsNaN (v / w) ↔ IsNaN v) ∧ val (v / w) = val v := by
    intro v w hw
    have e := div_weight (x := v) hw
    exact ⟨by rw [isNaN_num, isNaN_num (a := v), e], by rw [val_num, val_num v, e]⟩''')
    # membership
    a(f'''  have mem : ''' + ' '.join(f'∀ c{x} ∈ ({{b.min.{x}, b.max.{x}}} : Set S),' for x in ax) + f''' (Transform.transform t (⟨{', '.join('c'+x for x in ax)}⟩ : {P} S) : {P} S) ∈ corners{D} t b ∧ {' ∧ '.join(f'IsFinite c{x}' for x in ax)} := by
    intro {' '.join(f'c{x} h{x}' for x in ax)}
    simp only [Set.mem_insert_iff, Set.mem_singleton_iff] at {' '.join('h'+x for x in ax)}
    {' <;> '.join(f'rcases h{x} with rfl | rfl' for x in ax)} <;>
      exact ⟨by simp [corners{D}], by assumption, {', '.join('by assumption' for x in ax[1:])}⟩''')
    def enc(r):
        Hs=' '.join(f'h{idx(r,j)}' for j in range(n))
        if D==2: fs='lx ux ly uy fx fy'; 
        else: fs='lx ux ly uy lz uz fx fy fz'
        return f'enc_row{D} {Hs} {fs} {" ".join("r"+x for x in ax)}'
    cs=' '.join(f'c{x} h{x}' for x in ax)
    for r,x in enumerate(ax):
        cp='⟨'+', '.join('c'+y for y in ax)+'⟩'
        fs=' '.join(f'(mem {" ".join(f"_ h{y}" for y in ax)}).2'+('.2'*j)+('.1' if j<D-1 else '') for j,y in enumerate(ax))
        nn='('+f'{P}.noNaN.1 (hn _ (mem {" ".join(f"_ h{y}" for y in ax)}).1))'+('.2'*r)+('.1' if r<D-1 else '')
        a(f'''  have R{x} : ((∃ q ∈ corners{D} t b, (q.{x} ≤? (Transform.transform t p : {P} S).{x}) = true) ∧
      (∃ q ∈ corners{D} t b, ((Transform.transform t p : {P} S).{x} ≤? q.{x}) = true)) := by
    obtain ⟨k, ⟨{', '.join(f'c{y}, h{y}' for y in ax)}, le⟩, ⟨{', '.join(f'd{y}, g{y}' for y in ax)}, lf⟩⟩ := {enc(r)}
      (fun {cs} => (not_congr (key (W {fs})).1).1 ({nn}))
    have kp := key (v := {row(r,lambda y:'p.'+y)}) (W {' '.join('f'+y for y in ax)})
    constructor''')
        for c,h,nm in (('c','h','le'),('d','g','lf')):
            mm=f'(mem {" ".join(f"_ {h}{y}" for y in ax)})'
            fs=' '.join(mm+'.2'+('.2'*j)+('.1' if j<D-1 else '') for j,y in enumerate(ax))
            kc=f'(key (v := {row(r,lambda y:c+y)}) (W {fs}))'
            nn=f'({P}.noNaN.1 (hn _ {mm}.1))'+('.2'*r)+('.1' if r<D-1 else '')
            if c=='c':
                a(f'''    · exact ⟨_, {mm}.1, le_iff.2 ⟨{nn}, (not_congr kp.1).2 k, {kc}.2.trans_le (le.trans kp.2.ge)⟩⟩''')
            else:
                a(f'''    · exact ⟨_, {mm}.1, le_iff.2 ⟨(not_congr kp.1).2 k, {nn}, kp.2.trans_le (lf.trans {kc}.2.ge)⟩⟩''')
    a(f'''  exact ⟨{', '.join('R'+x for x in ax)}⟩''')
    hyp=f'''(build : Build) (b : {B} S) (ht : AllFinite t.forward)
    (haff : t.forward.toReal {D} = {last}) (hb : AllFinite b) (wb : LeAll b.min b.max)
    (hn : ∀ k : UInt32, k < {2**D} → ∀ c, b.corner build k = .ok c → NoNaN (Transform.transform t c : {P} S))'''
    a(f'''
/-- **C95**: the box around the transformed corners contains, exactly, the computed image of every point of the box, and
it is the smallest box that does. -/
theorem C95_around{D} (t : {T} S) {hyp} :
    ∃ B : {B} S, t.around build b = .ok B ∧ LeAll B.min B.max ∧
      (∀ p, b.isInside p = true → B.isInside (Transform.transform t p : {P} S) = true) ∧
      (∀ C : {B} S, (∀ p, b.isInside p = true → C.isInside (Transform.transform t p : {P} S) = true) →
        ∀ r, B.isInside r = true → C.isInside r = true) := by
  have hn' := (corners_iff{D} t build b NoNaN).1 hn
  obtain ⟨w, hin, hmin⟩ := C27_points{D} (corners{D} t b) (by simp [corners{D}]) hn'
  refine ⟨_, around_eq{D} t build b, w, ?_, ?_⟩
  · intro p hp
    have K := image_between{D} t b p ht haff hb hn' hp
    rw [isInside{D}_iff]
    refine ⟨{', '.join('?_' for x in ax)}⟩''')
    for j,x in enumerate(ax):
        kk='K'+('.2'*j)+('.1' if j<D-1 else '')
        ii=('.2'*j)+('.1' if j<D-1 else '')
        a(f'''    · obtain ⟨⟨q, hq, l1⟩, ⟨q', hq', l2⟩⟩ := {kk}
      exact ⟨le_trans' (isInside{D}_iff.1 (hin q hq)){ii}.1 l1, le_trans' l2 (isInside{D}_iff.1 (hin q' hq')){ii}.2⟩''')
    a(f'''  · intro C hC
    refine hmin C ((corners_iff{D} t build b (fun q => C.isInside q = true)).1 fun k hk c hc => ?_)
    exact hC c (corner_inside{D} build b wb hk hc)

/-- **C95**: the NaN condition is needed: if the image of some corner has a NaN coordinate, no box contains the images of
all the points of the box. -/
theorem C95_nan{D} (t : {T} S) (build : Build) (b : {B} S) (wb : LeAll b.min b.max) (k : UInt32) (hk : k < {2**D}) (c : {P} S)
    (hc : b.corner build k = .ok c) (hn : ¬ NoNaN (Transform.transform t c : {P} S)) (C : {B} S) :
    b.isInside c = true ∧ C.isInside (Transform.transform t c : {P} S) = false := by
  refine ⟨corner_inside{D} build b wb hk hc, ?_⟩
  rw [Bool.eq_false_iff]
  intro h
  rw [isInside{D}_iff] at h
  exact hn ({P}.noNaN.2 ⟨{', '.join('(le_iff.1 h'+('.2'*j)+('.1' if j<D-1 else '')+'.1).2.1' for j in range(D))}⟩)

/-- a property of numbers shared by the coordinates of all the images of the corners holds of the box around them -/
theorem around_all{D} (Q : S → Prop) (hQ : ∀ {{a c : S}}, num a = num c → Q c → Q a) (t : {T} S) (build : Build) (b : {B} S)
    (hn : ∀ k : UInt32, k < {2**D} → ∀ c, b.corner build k = .ok c →
      {' ∧ '.join(f'Q (Transform.transform t c : {P} S).{x}' for x in ax)})
    (hs : ∀ k : UInt32, k < {2**D} → ∀ c, b.corner build k = .ok c → NoNaN (Transform.transform t c : {P} S)) :
    ∃ B : {B} S, t.around build b = .ok B ∧ ({' ∧ '.join(f'Q B.min.{x}' for x in ax)}) ∧ {' ∧ '.join(f'Q B.max.{x}' for x in ax)} := by
  refine ⟨_, around_eq{D} t build b, ?_⟩
  have hn' := (corners_iff{D} t build b (fun q => {' ∧ '.join(f'Q q.{x}' for x in ax)})).1 hn
  replace hs := (corners_iff{D} t build b NoNaN).1 hs
  have hne : corners{D} t b ≠ [] := by simp [corners{D}]
  generalize corners{D} t b = l at *
  obtain ⟨p, ps, rfl⟩ := List.exists_cons_of_ne_nil hne
  rw [List.foldl_cons]
  have h0 : ({' ∧ '.join(f'Q (Api.union ({B}.empty : {B} S) p).min.{x}' for x in ax)}) ∧ {' ∧ '.join(f'Q (Api.union ({B}.empty : {B} S) p).max.{x}' for x in ax)} := by
    have e := union_emp{D} (S := S) (hs p (by simp))
    have fp := hn' p (by simp)
    simp only [{B}.beq_iff, {P}.beq_iff] at e
    exact ⟨⟨{', '.join('hQ (num_of_beq e.1'+pj(j)+') fp'+pj(j) for j in range(D))}⟩, {', '.join('hQ (num_of_beq e.2'+pj(j)+') fp'+pj(j) for j in range(D))}⟩
  have hp : ∀ q ∈ ps, {' ∧ '.join(f'Q q.{x}' for x in ax)} := fun q hq => hn' q (by simp [hq])
  clear hn hn' hs hne
  have mn : ∀ {{a c : S}}, Q a → Q c → Q (fmin a c) := by
    intro a c ha hc
    rcases min_same (a := a) (b := c) with h | h
    · exact hQ (by unfold num; rw [h]) ha
    · exact hQ (by unfold num; rw [h]) hc
  have mx : ∀ {{a c : S}}, Q a → Q c → Q (fmax a c) := by
    intro a c ha hc
    rcases max_same (a := a) (b := c) with h | h
    · exact hQ (by unfold num; rw [h]) ha
    · exact hQ (by unfold num; rw [h]) hc
  generalize Api.union ({B}.empty : {B} S) p = acc at h0
  induction ps generalizing acc with
  | nil => exact h0
  | cons q ps ih =>
    rw [List.foldl_cons]
    refine ih (fun r hr => hp r (by simp [hr])) (Api.union acc q) ?_
    have fq := hp q (by simp)
    obtain ⟨⟨{', '.join('a'+x for x in ax)}⟩, {', '.join('e'+x for x in ax)}⟩ := h0
    exact ⟨⟨{', '.join('mn (mn a'+ax[j]+' fq'+pj(j)+') (mx e'+ax[j]+' fq'+pj(j)+')' for j in range(D))}⟩, {', '.join('mx (mn a'+ax[j]+' fq'+pj(j)+') (mx e'+ax[j]+' fq'+pj(j)+')' for j in range(D))}⟩

/-- **C95**: if the images of the corners are finite, so is the box around them: it can be transformed again. -/
theorem C95_finite{D} (t : {T} S) (build : Build) (b : {B} S)
    (hn : ∀ k : UInt32, k < {2**D} → ∀ c, b.corner build k = .ok c → AllFinite (Transform.transform t c : {P} S)) :
    ∃ B : {B} S, t.around build b = .ok B ∧ AllFinite B := by
  obtain ⟨B, h1, h2⟩ := around_all{D} IsFinite (fun h hc => (finite_num h).2 hc) t build b
    (fun k hk c hc => {P}.allFinite.1 (hn k hk c hc)) (fun k hk c hc => (hn k hk c hc).noNaN)
  exact ⟨B, h1, {B}.allFinite.2 ⟨{P}.allFinite.2 h2.1, {P}.allFinite.2 h2.2⟩⟩

/-- **C95**: the box is no larger in magnitude than the images of the corners. -/
theorem C95_bounded{D} {{M : ℝ}} (t : {T} S) (build : Build) (b : {B} S)
    (hn : ∀ k : UInt32, k < {2**D} → ∀ c, b.corner build k = .ok c → UpToAll M (Transform.transform t c : {P} S)) :
    ∃ B : {B} S, t.around build b = .ok B ∧ UpToAll M B := by
  obtain ⟨B, h1, h2⟩ := around_all{D} (UpTo M) (fun h hc => ⟨(finite_num h).2 hc.1, by rw [real_num h]; exact hc.2⟩) t build b
    (fun k hk c hc => {P}.upToAll.1 (hn k hk c hc)) (fun k hk c hc => (hn k hk c hc).allFinite.noNaN)
  exact ⟨B, h1, {B}.upToAll.2 ⟨{P}.upToAll.2 h2.1, {P}.upToAll.2 h2.2⟩⟩

/-- every level is finite and affine, and its computed corner images are finite -/
def Levels{D} (build : Build) : List ({T} S) → {B} S → Prop
  | [], _ => True
  | t :: ts, b => AllFinite t.forward ∧ t.forward.toReal {D} = {last} ∧
      (∀ k : UInt32, k < {2**D} → ∀ c, b.corner build k = .ok c → AllFinite (Transform.transform t c : {P} S)) ∧
      ∀ b', t.around build b = .ok b' → Levels{D} build ts b'

/-- **C95**: a scene graph of any depth: a point of the innermost box, transformed level by level, is in the outermost box. -/
theorem C95_levels{D} (build : Build) (ts : List ({T} S)) (b : {B} S) (hb : AllFinite b) (wb : LeAll b.min b.max)
    (h : Levels{D} build ts b) :
    ∃ B : {B} S, {T}.aroundAll build ts b = .ok B ∧ AllFinite B ∧ LeAll B.min B.max ∧
      ∀ p, b.isInside p = true → B.isInside (ts.foldl (fun q t => (Transform.transform t q : {P} S)) p) = true := by
  induction ts generalizing b with
  | nil => exact ⟨b, rfl, hb, wb, fun p hp => hp⟩
  | cons t ts ih =>
    obtain ⟨h1, h2, h3, h4⟩ := h
    obtain ⟨b1, e1, f1⟩ := C95_finite{D} t build b h3
    obtain ⟨b2, e2, w2, i2, -⟩ := C95_around{D} t build b h1 h2 hb wb (fun k hk c hc => {P}.noNaN.2 (by
      have := {P}.allFinite.1 (h3 k hk c hc)
      exact ⟨{', '.join('this'+('.2'*j)+('.1' if j<D-1 else '')+'.not_nan' for j in range(D))}⟩))
    obtain rfl : b1 = b2 := Except.ok.inj (e1.symm.trans e2)
    obtain ⟨B, e3, f3, w3, i3⟩ := ih b1 f1 w2 (h4 b1 e1)
    refine ⟨B, ?_, f3, w3, fun p hp => i3 _ (i2 p hp)⟩
    show (t.around build b).bind _ = _
    rw [e1]; exact e3
''')
    return '\n'.join(o)
def real(D):
    T=f'Transform{D}'; B=f'BoundingBox{D}'; P=f'Point{D}'; V=f'Vector{D}'; R=f'Ray{D}'
    M = {2:'Matrix3x3',3:'Matrix4x4'}[D]
    last={2:'![0, 0, 1]',3:'![0, 0, 0, 1]'}[D]
    ax='xyz'[:D]
    ex=', '.join
    return f'''
/-! ## Culling in exact arithmetic, {D}D -/

theorem aff_row{D} {{m : {M} Ideal}} (h : m.Affine) : m.toReal {D} = {last} := by
  funext j
  have := h j
  fin_cases j <;> simpa using this

/-- **C95**: the box around the corners may be used to cull: whenever the transformed-back ray hits the box, the ray itself
hits the box around its transformed corners, over a range that contains the one reported. -/
theorem C95_cull{D} (t : {T} Ideal) (ht : AllFinite t) (hp : t.Paired) (ha : t.forward.Affine) (build : Build)
    (b : {B} Ideal) (hb : AllFinite b) (wb : LeAll b.min b.max) (ray : {R} Ideal) (hr : AllFinite ray)
    (hd : ray.direction.toReal ≠ 0) (hf : FaceFree{D} b (Transform.transform t.inv ray)) :
    ∃ B : {B} Ideal, t.around build b = .ok B ∧ AllFinite B ∧ (FaceFree{D} B ray →
      (∀ r : Range Ideal, Api.intersect b (Transform.transform t.inv ray : {R} Ideal) = some r →
        ∃ r' : Range Ideal, Api.intersect B ray = some r' ∧ (r'.start ≤? r.start) = true ∧ (r.stop ≤? r'.stop) = true) ∧
      (Api.intersect B ray = (none : Option (Range Ideal)) →
        Api.intersect b (Transform.transform t.inv ray : {R} Ideal) = (none : Option (Range Ideal)))) := by
  have ht' := {T}.allFinite.1 ht
  have hr' := {R}.allFinite.1 hr
  have fc : ∀ k : UInt32, k < {2**D} → ∀ c, b.corner build k = .ok c → AllFinite (Transform.transform t c : {P} Ideal) := by
    intro k hk c hc
    refine ha.fin_mulp ht'.1 ?_
    have hi := corner_inside{D} build b wb hk hc
    rw [isInside{D}_iff] at hi
    rw [{B}.allFinite, {P}.allFinite, {P}.allFinite] at hb
    rw [{P}.allFinite]
    exact ⟨{ex('finite_btw hb.1'+('.2'*j)+('.1' if j<D-1 else '')+' hb.2'+('.2'*j)+('.1' if j<D-1 else '')+' hi'+('.2'*j)+('.1' if j<D-1 else '')+'.1 hi'+('.2'*j)+('.1' if j<D-1 else '')+'.2' for j in range(D))}⟩
  obtain ⟨B, e1, f1⟩ := C95_finite{D} t build b fc
  obtain ⟨B', e2, w2, i2, -⟩ := C95_around{D} t build b ht'.1 (aff_row{D} ha) hb wb (fun k hk c hc => {P}.noNaN.2 (by
    have := {P}.allFinite.1 (fc k hk c hc)
    exact ⟨{ex('this'+('.2'*j)+('.1' if j<D-1 else '')+'.not_nan' for j in range(D))}⟩))
  obtain rfl : B = B' := Except.ok.inj (e1.symm.trans e2)
  refine ⟨B, e1, f1, fun hF => ?_⟩
  obtain ⟨k1, k2⟩ := C93_real{D} t ht hp ha b hb wb ray hr hd hf
  obtain ⟨g1, g2⟩ := C35_real{D} B f1 w2 ray hr hd hF
  have hfin : ∀ r : Range Ideal, Api.intersect b (Transform.transform t.inv ray : {R} Ideal) = some r →
      IsFinite r.start ∧ IsFinite r.stop ∧ (r.start ≤? r.stop) = true := by
    intro r h
    have hi := hp.affine_inverse ht ha
    have fti : AllFinite t.inv := {T}.allFinite.2 ⟨ht'.2, ht'.1⟩
    have fl : AllFinite (Transform.transform t.inv ray : {R} Ideal) :=
      {R}.allFinite.2 ⟨hi.fin_mulp ht'.2 hr'.1, {M}.fin_mulv ht'.2 hr'.2⟩
    have hd' : (Transform.transform t.inv ray : {R} Ideal).direction.toReal ≠ 0 := by
      intro h0
      apply hd
      have h1 := (C51_real{D} t.inv fti (hp.symm ht) ray.origin hr'.1 ray.direction hr'.2).2 hi
      have h2 : (t.forward * (t.inverse * ray.direction)).toReal = ray.direction.toReal :=
        ({V}.beq_toReal ({M}.fin_mulv ht'.1 ({M}.fin_mulv ht'.2 hr'.2)) hr'.2).1 h1
      rw [{M}.toReal_mulv' ht'.1 ({M}.fin_mulv ht'.2 hr'.2), show (t.inverse * ray.direction).toReal = 0 from h0, Matrix.mulVec_zero] at h2
      exact h2.symm
    obtain ⟨l1, -⟩ := C35_real{D} b hb wb _ fl hd' hf
    exact ⟨(l1 r h).1, (l1 r h).2.1, (C34_range{D} b _ r h).2.1⟩
  have key : ∀ s : Ideal, IsFinite s → (∃ q : {P} Ideal, AllFinite q ∧ b.isInside q = true ∧
      ((Transform.transform t q : {P} Ideal) == ray.at s) = true) → B.isInside (ray.at s) = true := by
    rintro s hs ⟨q, fq, hq, e⟩
    have fa : AllFinite (ray.at s) := {P}.fin_addv hr'.1 ({V}.fin_mul hr'.2 hs)
    have fi : AllFinite (Transform.transform t q : {P} Ideal) := ha.fin_mulp ht'.1 fq
    have hi := i2 q hq
    rw [{B}.inside_real f1 fi] at hi
    rw [{B}.inside_real f1 fa, ← ({P}.beq_toReal fi fa).1 e]
    exact hi
  have main : ∀ r : Range Ideal, Api.intersect b (Transform.transform t.inv ray : {R} Ideal) = some r →
        ∃ r' : Range Ideal, Api.intersect B ray = some r' ∧ (r'.start ≤? r.start) = true ∧ (r.stop ≤? r'.stop) = true := by
    intro r h
    obtain ⟨fs, fe, hse⟩ := hfin r h
    have ps := (k1 r h r.start fs).2 ⟨le_self fs.not_nan, hse⟩
    have pe := (k1 r h r.stop fe).2 ⟨hse, le_self fe.not_nan⟩
    have bs := key _ fs ps.2
    have be := key _ fe pe.2
    cases hI : (Api.intersect B ray : Option (Range Ideal)) with
    | none => have := g2.1 hI _ fs ps.1; rw [bs] at this; cases this
    | some r' => exact ⟨r', rfl, (((g1 r' hI).2.2 _ fs).1 ⟨ps.1, bs⟩).1, (((g1 r' hI).2.2 _ fe).1 ⟨pe.1, be⟩).2⟩
  refine ⟨main, fun hN => ?_⟩
  cases hI : (Api.intersect b (Transform.transform t.inv ray : {R} Ideal) : Option (Range Ideal)) with
  | none => rfl
  | some r => obtain ⟨r', h', -⟩ := main r hI; rw [hN] at h'; cases h'
'''

def roomgen(D):
    T=f'Transform{D}'; B=f'BoundingBox{D}'; P=f'Point{D}'; n=D+1
    last={2:'![0, 0, 1]',3:'![0, 0, 0, 1]'}[D]
    ax='xyz'[:D]
    pj=lambda j: ('.2'*j)+('.1' if j<D-1 else '')
    return f"""
/-- the corners are no larger than the box -/
theorem corner_upTo{D} {{M : ℝ}} (build : Build) (b : {B} S) (hb : UpToAll M b) {{k : UInt32}} {{c : {P} S}}
    (hc : b.corner build k = .ok c) : UpToAll M c := by
  rw [{B}.upToAll, {P}.upToAll, {P}.upToAll] at hb
  unfold {B}.corner at hc
  split_ifs at hc <;> cases hc <;> rw [{P}.upToAll] <;> simp only [{P}.new] <;>
    exact ⟨{', '.join(f'(by first | exact hb.1{pj(j)} | exact hb.2{pj(j)})' for j in range(D))}⟩
/-- **C95** without overflow: linear part up to `2^a`, box up to `2^b`, offset up to `2^(a+b)`: no condition on the computed
images is needed, and the box around the corners is finite and at most `{n} · 2^(a+b)`. -/
theorem C95_room{D} {{a e : ℤ}} (t : {T} S) (build : Build) (b : {B} S) (hF : AllFinite t.forward)
    (haff : t.forward.toReal {D} = {last}) (hA : ∀ i j : Fin {D}, UpTo (2 ^ a) (t.forward.m[{n} * i.val + j.val]))
    (ho : ∀ i : Fin {D}, UpTo (2 ^ (a + e)) (t.forward.m[{n} * i.val + {D}])) (hb : UpToAll (2 ^ e) b) (wb : LeAll b.min b.max)
    (hR : Room S (a + e) {n}) :
    ∃ B : {B} S, t.around build b = .ok B ∧ UpToAll ({n} * 2 ^ (a + e)) B ∧ LeAll B.min B.max ∧
      ∀ p, b.isInside p = true → B.isInside (Transform.transform t p : {P} S) = true := by
  have fc : ∀ k : UInt32, k < {2**D} → ∀ c, b.corner build k = .ok c →
      UpToAll ({n} * 2 ^ (a + e)) (Transform.transform t c : {P} S) :=
    fun k _ c hc => C86_point{D} t c hF haff hA ho (corner_upTo{D} build b hb hc) hR
  obtain ⟨B, e1, u⟩ := C95_bounded{D} t build b fc
  obtain ⟨B', e2, w, i, -⟩ := C95_around{D} t build b hF haff hb.allFinite wb (fun k hk c hc => (fc k hk c hc).allFinite.noNaN)
  obtain rfl : B = B' := Except.ok.inj (e1.symm.trans e2)
  exact ⟨B, e1, u, w, i⟩
"""
head='''import Verif.Spec.Corners
import Verif.Spec.Range
import Verif.Lemmas.Enc
import Verif.Props.FloatErrorMat
import Verif.Props.FloatBox
import Verif.Props.FloatCull
import Verif.Props.FloatRange
import Verif.Props.RealInstance
/-!
# The box around the transformed corners: C95

Generated by tools/gen/corners.py. Transforming the corners of a box one by one and taking the union bounds the computed
image of every point of the box *exactly*, in floating point: rounding is monotone. (Compare C56: `transform` of the box
itself does not.)
-/
open Classical

namespace VecMath
open Scalar IEEE

section
variable {S : Type} [Scalar S] [IEEE S]

theorem finite_btw {a b c : S} (ha : IsFinite a) (hc : IsFinite c) (h1 : (a ≤? b) = true) (h2 : (b ≤? c) = true) :
    IsFinite b := by
  rw [le_iff] at h1 h2
  rw [finite_iff]
  refine ⟨h1.2.1, fun h => ?_, fun h => ?_⟩
  · have := h2.2.2; rw [h, hc.val] at this; exact absurd this (by simp)
  · have := h1.2.2; rw [h, ha.val] at this; exact absurd this (by simp)
theorem isNaN_num {a : S} : IsNaN a ↔ num a = .nan := by
  unfold IsNaN num
  rcases den a with _ | s | _ | x <;> simp [Val.canon]
'''
import os
s=head+gen(2)+gen(3)+'end\nsection\nvariable {S : Type} [Scalar S] [IEEE S] [Binary S]\n'+roomgen(2)+roomgen(3)+'end\n'+real(2)+real(3)
ex='/tmp/w/cornersex.lean'
if os.path.exists(ex): s+=open(ex).read()
s+='\nend VecMath\n'
open('/verif/lean/Verif/Props/FloatCorners.lean','w').write(s)
