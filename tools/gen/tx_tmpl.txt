/-! ## $Tr -/
section
variable {t a b c : $Tr Ideal} {p : $P Ideal} {v : $V Ideal}

/-- **C49**: every constructor pairs the forward matrix with its true inverse. -/
theorem C49_real$D (v : $V Ideal) (hv : AllFinite v) ($SXS s : Ideal) (hs : $SNZ) (hsu : IsFinite s ∧ real s ≠ 0) :
    ($Tr.identity : $Tr Ideal).Paired ∧ ($Tr.translate v).Paired ∧ ($Tr.scale $SXS).Paired ∧
    ($Tr.scaleUniform s).Paired := by
  have key : ∀ $SXS : Ideal, ($SNZ) → ($Tr.scale $SXS).Paired := by
    intro $SXS hs
    refine $Tr.paired_of_affine ($M.fin_scale $SFP) ($M.fin_scale $SRF)
      ($M.scale_affine $SXS) ($M.scale_affine $SRX) ?_ ?_
    · show ($M.scale $SXS).linear * ($M.scale $SRX).linear = 1
      rw [$M.linear_scale, $M.linear_scale, Matrix.diagonal_mul_diagonal, ← Matrix.diagonal_one]
      congr 1
      ext i; fin_cases i <;> simp [$SRR, hs]
    · show ($M.scale $SXS).linear.mulVec ($M.scale $SRX).offset + ($M.scale $SXS).offset = 0
      rw [$M.offset_scale, $M.offset_scale, Matrix.mulVec_zero, add_zero]
  refine ⟨?_, ?_, key $SXS hs, key $SSS $SUU⟩
  · refine ($Tr.paired_iff $M.fin_identity $M.fin_identity).2 ?_
    show ($M.identity : $M Ideal).toReal * ($M.identity : $M Ideal).toReal = 1
    rw [$M.toReal_identity, mul_one]
  · refine $Tr.paired_of_affine ($M.fin_translate hv) ($M.fin_translate ($V.fin_neg hv)) ($M.translate_affine v)
      ($M.translate_affine (-v)) ?_ ?_
    · show ($M.translate v).linear * ($M.translate (-v)).linear = 1
      rw [$M.linear_translate, $M.linear_translate, mul_one]
    · show ($M.translate v).linear.mulVec ($M.translate (-v)).offset + ($M.translate v).offset = 0
      rw [$M.linear_translate, $M.offset_translate, $M.offset_translate, Matrix.one_mulVec, $V.toReal_neg hv, neg_add_cancel]

$ROT
/-- **C50**: `a.and_then(b)` applies `a` first, then `b`: on points of nonzero weight, on vectors and rays
when `a` is affine. -/
theorem C50_real_point$D (a b : $Tr Ideal) (p : $P Ideal) (ha : AllFinite a.forward) (hb : AllFinite b.forward)
    (hp : AllFinite p) (h1 : a.forward.weight p ≠ 0)
    (h2 : b.forward.weight (Transform.transform a p : $P Ideal) ≠ 0) :
    (Transform.transform (a.andThen b) p == Transform.transform b (Transform.transform a p : $P Ideal)) = true :=
  (C43_real_compose$D b.forward a.forward p hb ha hp h1 h2).2
theorem C50_real_vector$D (a b : $Tr Ideal) (v : $V Ideal) (ha : AllFinite a.forward) (hb : AllFinite b.forward)
    (hv : AllFinite v) (h1 : a.forward.Affine) :
    (Transform.transform (a.andThen b) v == Transform.transform b (Transform.transform a v : $V Ideal)) = true := by
  show ((b.forward * a.forward) * v == b.forward * (a.forward * v)) = true
  rw [$V.beq_toReal ($M.fin_mulv ($M.fin_mul hb ha) hv) ($M.fin_mulv hb ($M.fin_mulv ha hv)),
    $M.toReal_mulv' ($M.fin_mul hb ha) hv, $M.toReal_mulv' hb ($M.fin_mulv ha hv), $M.toReal_mulv' ha hv,
    h1.linear_mul hb ha, Matrix.mulVec_mulVec]
theorem C50_real_ray$D (a b : $Tr Ideal) (r : Ray$D Ideal) (ha : AllFinite a.forward) (hb : AllFinite b.forward)
    (hr : AllFinite r) (h1 : a.forward.Affine) (h2 : b.forward.Affine) :
    (Transform.transform (a.andThen b) r == Transform.transform b (Transform.transform a r : Ray$D Ideal)) = true := by
  rw [Ray$D.allFinite] at hr
  refine Ray$D.beq_iff.2 ⟨?_, ?_⟩
  · exact C50_real_point$D a b r.origin ha hb hr.1 (by rw [h1.weight]; norm_num) (by rw [h2.weight]; norm_num)
  · exact C50_real_vector$D a b r.direction ha hb hr.2 h1
/-- **C50**: `and_then` is associative with the identity transform as unit. -/
theorem C50_real_monoid$D (a b c : $Tr Ideal) (ha : AllFinite a) (hb : AllFinite b) (hc : AllFinite c) :
    ((a.andThen b).andThen c == a.andThen (b.andThen c)) = true ∧
    ($Tr.identity.andThen a == a) = true ∧ (a.andThen $Tr.identity == a) = true := by
  rw [$Tr.allFinite] at ha hb hc
  have z := finite_zero (S := Ideal)
  have as := fun x y w (hx : AllFinite x) (hy : AllFinite y) (hw : AllFinite w) =>
    (C41_real$D x y w zero hx hy hw z).2.2.1
  refine ⟨$Tr.beq_iff.2 ⟨?_, ?_⟩, $Tr.beq_iff.2 ⟨?_, ?_⟩, $Tr.beq_iff.2 ⟨?_, ?_⟩⟩
  · show (c.forward * (b.forward * a.forward) == (c.forward * b.forward) * a.forward) = true
    rw [($MEQ).symm]
    exact as _ _ _ hc.1 hb.1 ha.1
  · exact as _ _ _ ha.2 hb.2 hc.2
  · exact (C41_float_identity$D _ ha.1).1
  · exact (C41_float_identity$D _ ha.2).2
  · exact (C41_float_identity$D _ ha.1).2
  · exact (C41_float_identity$D _ ha.2).1

/-- **C51**: `t.inverse()` undoes `t`, on every point of nonzero weight, and on vectors when `t` is affine. -/
theorem C51_real$D (t : $Tr Ideal) (ht : AllFinite t) (h : t.Paired) (p : $P Ideal) (hp : AllFinite p)
    (v : $V Ideal) (hv : AllFinite v) :
    (t.forward.weight p ≠ 0 → (Transform.transform t.inv (Transform.transform t p : $P Ideal) == p) = true) ∧
    (t.forward.Affine → (Transform.transform t.inv (Transform.transform t v : $V Ideal) == v) = true) := by
  rw [$Tr.allFinite] at ht
  obtain ⟨hf, hi⟩ := ht
  have h1 := mul_eq_one_comm.1 (($Tr.paired_iff hf hi).1 h)
  have h1' : (t.inverse * t.forward).toReal = 1 := by rw [$M.toReal_mul hi hf, h1]
  constructor
  · intro hw
    show (t.inverse * (t.forward * p) == p) = true
    have e := $M.weight_mul hi hf hp hw
    have e1 : (t.inverse * t.forward).weight p = 1 := by
      unfold $M.weight; rw [h1', Matrix.one_mulVec]; rfl
    rw [e1] at e
    have hw2 : t.inverse.weight (t.forward * p) ≠ 0 := by
      intro h0; rw [h0, zero_mul] at e; exact one_ne_zero e
    have fp := $M.fin_mulp hf hp hw
    rw [$P.beq_toReal ($M.fin_mulp hi fp hw2) hp]
    apply $P.hom_inj
    rw [$M.hom_mulp hi fp hw2, $M.hom_mulp hf hp hw, Matrix.mulVec_smul, Matrix.mulVec_mulVec, h1, Matrix.one_mulVec, smul_smul,
      ← mul_inv, ← e, inv_one, one_smul]
  · intro haf
    show (t.inverse * (t.forward * v) == v) = true
    have fv := $M.fin_mulv hf hv
    rw [$V.beq_toReal ($M.fin_mulv hi fv) hv, $M.toReal_mulv' hi fv, $M.toReal_mulv' hf hv, Matrix.mulVec_mulVec,
      ← haf.linear_mul hi hf]
    have : (t.inverse * t.forward).linear = 1 := by
      unfold $M.linear; rw [h1', ← $M.toReal_identity]; exact $M.linear_identity
    rw [this, Matrix.one_mulVec]

/-- **C55**: for an affine transform, transforming a ray commutes with evaluating it. -/
theorem C55_real$D (t : $Tr Ideal) (ht : AllFinite t.forward) (h : t.forward.Affine) (r : Ray$D Ideal)
    (hr : AllFinite r) (s : Ideal) (hs : IsFinite s) :
    ((Transform.transform t r : Ray$D Ideal).at s == (Transform.transform t (r.at s) : $P Ideal)) = true := by
  rw [Ray$D.allFinite] at hr
  have fd := $V.fin_mul hr.2 hs
  have fa := $P.fin_addv hr.1 fd
  have f1 := $M.fin_mulv ht hr.2
  have f2 := h.fin_mulp ht hr.1
  show (t.forward * r.origin + (t.forward * r.direction) * s == t.forward * (r.origin + r.direction * s)) = true
  rw [$P.beq_toReal ($P.fin_addv f2 ($V.fin_mul f1 hs)) (h.fin_mulp ht fa), $P.toReal_addv f2 ($V.fin_mul f1 hs),
    $V.toReal_mul f1 hs, $M.toReal_mulv' ht hr.2, h.toReal_mulp ht hr.1, h.toReal_mulp ht fa, $P.toReal_addv hr.1 fd,
    $V.toReal_mul hr.2 hs, Matrix.mulVec_add, Matrix.mulVec_smul]
  abel
/-- **C55**: the inverse transform undoes the transform on rays. -/
theorem C55_real_inverse$D (t : $Tr Ideal) (ht : AllFinite t) (hp : t.Paired) (h : t.forward.Affine) (r : Ray$D Ideal)
    (hr : AllFinite r) :
    (Transform.transform t.inv (Transform.transform t r : Ray$D Ideal) == r) = true := by
  rw [Ray$D.allFinite] at hr
  have ⟨h1, h2⟩ := C51_real$D t ht hp r.origin hr.1 r.direction hr.2
  exact Ray$D.beq_iff.2 ⟨h1 (by rw [h.weight]; norm_num), h2 h⟩

/-- **C52**: the transforms a program can build with valid arguments. `P` restricts the matrices that are
passed to `try_from`. -/
inductive Built$D (P : $M Ideal → Prop) : $Tr Ideal → Prop
  | identity : Built$D P $Tr.identity
  | translate (v : $V Ideal) : AllFinite v → Built$D P ($Tr.translate v)
$BUILD  | scale ($SXS : Ideal) : ($SNZ) → Built$D P ($Tr.scale $SXS)
  | scaleUniform (s : Ideal) : (IsFinite s ∧ real s ≠ 0) → Built$D P ($Tr.scaleUniform s)
  | tryFrom (m : $M Ideal) (t : $Tr Ideal) : P m → $Tr.tryFrom m = .ok t → Built$D P t
  | andThen (a b : $Tr Ideal) : Built$D P a → Built$D P b → Built$D P (a.andThen b)
  | inverse (a : $Tr Ideal) : Built$D P a → Built$D P a.inv

theorem built_inv$D {P : $M Ideal → Prop} (hP : ∀ m, P m → AllFinite m) (t : $Tr Ideal) (h : Built$D P t) :
    AllFinite t.forward ∧ AllFinite t.inverse ∧ t.Paired := by
  induction h with
  | identity =>
    exact ⟨$M.fin_identity, $M.fin_identity, (C49_real$D $V.zero $V.fin_zero $ONES one $ONEP ⟨finite_one, by rw [real_one]; norm_num⟩).1⟩
  | translate v hv =>
    exact ⟨$M.fin_translate hv, $M.fin_translate ($V.fin_neg hv),
      (C49_real$D v hv $ONES one $ONEP ⟨finite_one, by rw [real_one]; norm_num⟩).2.1⟩
$BCASES  | scale $SXS hs =>
    exact ⟨$M.fin_scale $SFP, $M.fin_scale $SRF,
      (C49_real$D $V.zero $V.fin_zero $SXS one hs ⟨finite_one, by rw [real_one]; norm_num⟩).2.2.1⟩
  | scaleUniform s hs =>
    exact ⟨$M.fin_scale $SUF, $M.fin_scale $SUR,
      (C49_real$D $V.zero $V.fin_zero $ONES s $ONEP hs).2.2.2⟩
  | tryFrom m t hm e =>
    have h2 := (C57_real$D m (hP m hm)).2 t e
    have h3 : ∃ n, m.inverse = .ok n ∧ t = ⟨m, n⟩ := by
      unfold $Tr.tryFrom at e
      rcases hn : m.inverse with _ | n
      · rw [hn] at e; cases e
      · rw [hn] at e; cases e; exact ⟨n, rfl, rfl⟩
    obtain ⟨n, hn, rfl⟩ := h3
    exact ⟨hP m hm, ($M.inverse_ok (hP m hm) hn).2.1, h2.2⟩
  | andThen a b _ _ ia ib =>
    obtain ⟨fa, ga, pa⟩ := ia
    obtain ⟨fb, gb, pb⟩ := ib
    have ff := $M.fin_mul fb fa
    have gg := $M.fin_mul ga gb
    refine ⟨ff, gg, ($Tr.paired_iff ff gg).2 ?_⟩
    show (b.forward * a.forward).toReal * (a.inverse * b.inverse).toReal = 1
    rw [$M.toReal_mul fb fa, $M.toReal_mul ga gb, mul_assoc, ← mul_assoc a.forward.toReal, ($Tr.paired_iff fa ga).1 pa, one_mul,
      ($Tr.paired_iff fb gb).1 pb]
  | inverse a _ ia => exact ⟨ia.2.1, ia.1, ia.2.2.2, ia.2.2.1⟩

/-- **C52**: after any finite history of constructor, `try_from`,$LOOKTXT `and_then` and `inverse` calls, forward and
inverse matrix are finite and inverse to each other; so every point of nonzero weight survives the round trip. -/
theorem C52_paired$D (t : $Tr Ideal) (h : Built$D AllFinite t) :
    AllFinite t.forward ∧ AllFinite t.inverse ∧ t.Paired ∧
    ∀ p : $P Ideal, AllFinite p → t.forward.weight p ≠ 0 →
      (Transform.transform t.inv (Transform.transform t p : $P Ideal) == p) = true := by
  obtain ⟨h1, h2, h3⟩ := built_inv$D (fun m hm => hm) t h
  exact ⟨h1, h2, h3, fun p hp => (C51_real$D t ($Tr.allFinite.2 ⟨h1, h2⟩) h3 p hp $V.zero $V.fin_zero).1⟩

theorem built_affine$D (t : $Tr Ideal) (h : Built$D (fun m => AllFinite m ∧ m.Affine) t) :
    t.forward.Affine ∧ t.inverse.Affine := by
  have hP : ∀ m : $M Ideal, (AllFinite m ∧ m.Affine) → AllFinite m := fun m h => h.1
  have key : ∀ t, Built$D (fun m => AllFinite m ∧ m.Affine) t → t.forward.Affine → t.inverse.Affine := by
    intro t ht ha
    obtain ⟨hf, hi, hp⟩ := built_inv$D hP t ht
    exact inverse_affine$SUF2 hf ha hi (($Tr.paired_iff hf hi).1 hp)
  have key2 : t.forward.Affine → t.forward.Affine ∧ t.inverse.Affine := fun ha => ⟨ha, key t h ha⟩
  induction h with
  | identity => exact ⟨$M.identity_affine, $M.identity_affine⟩
  | translate v hv => exact ⟨$M.translate_affine v, $M.translate_affine (-v)⟩
$ACASES  | scale $SXS hs => exact ⟨$M.scale_affine $SXS, $M.scale_affine $SRX⟩
  | scaleUniform s hs => exact ⟨$M.scale_affine $SSS, $M.scale_affine $SRU⟩
  | tryFrom m t hm e =>
    refine key2 ?_
    rw [((C57_real$D m hm.1).2 t e).1]; exact hm.2
  | andThen a b ha hb ia ib =>
    obtain ⟨fa, ga, pa⟩ := built_inv$D hP a ha
    obtain ⟨fb, gb, pb⟩ := built_inv$D hP b hb
    have ia := ia (fun h => ⟨h, key a ha h⟩)
    have ib := ib (fun h => ⟨h, key b hb h⟩)
    exact ⟨ib.1.mul ia.1 fb fa, ia.2.mul ib.2 ga gb⟩
  | inverse a ha ia =>
    have ia := ia (fun h => ⟨h, key a ha h⟩)
    exact ⟨ia.2, ia.1⟩

/-- **C52**: if moreover only affine matrices are passed to `try_from`, the transform is affine, no point ever
meets a zero weight, and points, vectors and rays survive the round trip in both directions. -/
theorem C52_affine$D (t : $Tr Ideal) (h : Built$D (fun m => AllFinite m ∧ m.Affine) t) (p : $P Ideal) (hp : AllFinite p)
    (v : $V Ideal) (hv : AllFinite v) :
    t.forward.Affine ∧ t.inverse.Affine ∧ t.forward.weight p = 1 ∧ t.inverse.weight p = 1 ∧
    (Transform.transform t.inv (Transform.transform t p : $P Ideal) == p) = true ∧
    (Transform.transform t (Transform.transform t.inv p : $P Ideal) == p) = true ∧
    (Transform.transform t.inv (Transform.transform t v : $V Ideal) == v) = true ∧
    (Transform.transform t (Transform.transform t.inv v : $V Ideal) == v) = true := by
  obtain ⟨h1, h2, h3⟩ := built_inv$D (fun m hm => hm.1) t h
  obtain ⟨a1, a2⟩ := built_affine$D t h
  have r1 := C51_real$D t ($Tr.allFinite.2 ⟨h1, h2⟩) h3 p hp v hv
  have r2 := C51_real$D t.inv ($Tr.allFinite.2 ⟨h2, h1⟩) ⟨h3.2, h3.1⟩ p hp v hv
  refine ⟨a1, a2, a1.weight p, a2.weight p, r1.1 ?_, r2.1 ?_, r1.2 a1, r2.2 a2⟩
  · rw [a1.weight]; norm_num
  · show t.inverse.weight p ≠ 0
    rw [a2.weight]; norm_num

theorem fold_built$D (P : $M Ideal → Prop) (ts : List ($Tr Ideal)) (a : $Tr Ideal) (ha : Built$D P a) (h : ∀ t ∈ ts, Built$D P t) :
    Built$D P (ts.foldl $Tr.andThen a) := by
  induction ts generalizing a with
  | nil => exact ha
  | cons t ts ih =>
    exact ih _ (.andThen a t ha (h t (by simp))) (fun t ht => h t (by simp [ht]))

/-- **C50**: chaining any list of affine transforms with `and_then` and applying the result once is the
same as applying them one after the other. -/
theorem C50_real_chain$D (ts : List ($Tr Ideal)) (h : ∀ t ∈ ts, AllFinite t.forward ∧ t.forward.Affine) (p : $P Ideal)
    (hp : AllFinite p) :
    (Transform.transform (ts.foldl $Tr.andThen $Tr.identity) p ==
      ts.foldl (fun (q : $P Ideal) t => (Transform.transform t q : $P Ideal)) p) = true := by
  have key : ∀ (a : $Tr Ideal) (q q' : $P Ideal), AllFinite a.forward → a.forward.Affine → AllFinite q → AllFinite q' →
      (a.forward * q).toReal = q'.toReal →
      AllFinite ((ts.foldl $Tr.andThen a).forward * q) ∧
      AllFinite (ts.foldl (fun (q : $P Ideal) t => (Transform.transform t q : $P Ideal)) q') ∧
      ((ts.foldl $Tr.andThen a).forward * q).toReal =
      (ts.foldl (fun (q : $P Ideal) t => (Transform.transform t q : $P Ideal)) q').toReal := by
    induction ts with
    | nil => intro a q q' fa aa fq fq' e; exact ⟨aa.fin_mulp fa fq, fq', e⟩
    | cons t ts ih =>
      intro a q q' fa aa fq fq' e
      obtain ⟨ft, at'⟩ := h t (by simp)
      rw [List.foldl_cons, List.foldl_cons]
      refine ih (fun t ht => h t (by simp [ht])) _ _ _ ($M.fin_mul ft fa) (at'.mul aa ft fa) fq (at'.fin_mulp ft fq') ?_
      show ((t.forward * a.forward) * q).toReal = (t.forward * q').toReal
      rw [(at'.mul aa ft fa).toReal_mulp ($M.fin_mul ft fa) fq, at'.toReal_mulp ft fq', ← e, aa.toReal_mulp fa fq,
        aa.linear_mul ft fa, aa.offset_mul ft fa, Matrix.mulVec_add, Matrix.mulVec_mulVec, add_assoc]
  have := key $Tr.identity p p $M.fin_identity $M.identity_affine hp hp (by
    show (($M.identity : $M Ideal) * p).toReal = _
    rw [$M.identity_affine.toReal_mulp $M.fin_identity hp, $M.linear_identity, $M.offset_identity, Matrix.one_mulVec, add_zero])
  exact ($P.beq_toReal this.1 this.2.1).2 this.2.2
/-- **C52**: the rigid motions a program can build. -/
inductive Motion$D : $Tr Ideal → Prop
  | identity : Motion$D $Tr.identity
  | translate (v : $V Ideal) : AllFinite v → Motion$D ($Tr.translate v)
$MBUILD  | andThen (a b : $Tr Ideal) : Motion$D a → Motion$D b → Motion$D (a.andThen b)
  | inverse (a : $Tr Ideal) : Motion$D a → Motion$D a.inv

theorem motion_inv$D (t : $Tr Ideal) (h : Motion$D t) :
    Built$D (fun m => AllFinite m ∧ m.Affine) t ∧ t.forward.linear.transpose * t.forward.linear = 1 ∧ t.forward.linear.det = 1 := by
  have orth : ∀ {f i : Matrix (Fin $D) (Fin $D) ℝ}, f * i = 1 → f.transpose * f = 1 → f.det = 1 →
      i.transpose * i = 1 ∧ i.det = 1 := by
    intro f i h1 h2 h3
    have : i = f.transpose := by
      have e : f.transpose * (f * i) = f.transpose := by rw [h1, mul_one]
      rwa [← mul_assoc, h2, one_mul] at e
    rw [this, Matrix.transpose_transpose, Matrix.det_transpose]
    exact ⟨mul_eq_one_comm.1 h2, h3⟩
  induction h with
  | identity =>
    refine ⟨.identity, ?_, ?_⟩
    · show ($M.identity : $M Ideal).linear.transpose * ($M.identity : $M Ideal).linear = 1
      rw [$M.linear_identity, Matrix.transpose_one, mul_one]
    · show ($M.identity : $M Ideal).linear.det = 1
      rw [$M.linear_identity, Matrix.det_one]
  | translate v hv =>
    refine ⟨.translate v hv, ?_, ?_⟩
    · show ($M.translate v).linear.transpose * ($M.translate v).linear = 1
      rw [$M.linear_translate, Matrix.transpose_one, mul_one]
    · show ($M.translate v).linear.det = 1
      rw [$M.linear_translate, Matrix.det_one]
$MCASES  | andThen a b _ _ ia ib =>
    obtain ⟨ba, oa, da⟩ := ia
    obtain ⟨bb, ob, db⟩ := ib
    have fa := (built_inv$D (fun m hm => hm.1) a ba).1
    have fb := (built_inv$D (fun m hm => hm.1) b bb).1
    have aa := (built_affine$D a ba).1
    refine ⟨.andThen a b ba bb, ?_, ?_⟩
    · show (b.forward * a.forward).linear.transpose * (b.forward * a.forward).linear = 1
      rw [aa.linear_mul fb fa, Matrix.transpose_mul, mul_assoc, ← mul_assoc b.forward.linear.transpose, ob, one_mul, oa]
    · show (b.forward * a.forward).linear.det = 1
      rw [aa.linear_mul fb fa, Matrix.det_mul, da, db, one_mul]
  | inverse a _ ia =>
    obtain ⟨ba, oa, da⟩ := ia
    obtain ⟨fa, ga, pa⟩ := built_inv$D (fun m hm => hm.1) a ba
    have ai := (built_affine$D a ba).2
    have h1 : a.forward.linear * a.inverse.linear = 1 := by
      rw [← ai.linear_mul fa ga, ← $M.linear_identity]
      unfold $M.linear
      rw [$M.toReal_mul fa ga, ($Tr.paired_iff fa ga).1 pa, $M.toReal_identity]
    exact ⟨.inverse a ba, orth h1 oa da⟩

/-- **C52**: every composition of translations, rotations,$LOOKTXT and their inverses preserves dot products,
lengths, distances and orientation, exactly; and so does its inverse. -/
theorem C52_rigid$D (t : $Tr Ideal) (h : Motion$D t) : t.Rigid ∧ t.inv.Rigid := by
  have key : ∀ t : $Tr Ideal, Motion$D t → t.Rigid := by
    intro t h
    obtain ⟨b, o, d⟩ := motion_inv$D t h
    exact $Tr.rigid_of (built_inv$D (fun m hm => hm.1) t b).1 (built_affine$D t b).1 o d
  exact ⟨key t h, key t.inv (.inverse t h)⟩
end

