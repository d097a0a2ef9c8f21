p='/tmp/d/FloatInvAffineB.lean'
s=open(p).read()
s=s.replace("\n(Generated by tools/gen.)\n","")
tr={(i,j):'zero' for i in range(4) for j in range(4)}
for i in range(4): tr[(i,i)]='one'
for k,c in enumerate('xyz'): tr[(k,3)]=f'v.{c}'
out=""
def want(i,j):
    # cofactor i j = inverse(j,i) of translate(-v) 
    if i==j: return "one"
    if i==3: return f"-v.{'xyz'[j]}"
    return "zero"
for i in range(4):
    for j in range(4):
        r=[x for x in range(4) if x!=i]; c=[x for x in range(4) if x!=j]
        e=lambda a,b: tr[(r[a],c[b])]
        sg='one' if (i+j)%2==0 else '-one'
        P=lambda a,b,cc: f"{e(0,a)} * {e(1,b)} * {e(2,cc)}"
        ex=f"{sg} * ({P(0,1,2)} + {P(1,2,0)} + {P(2,0,1)} - {P(0,2,1)} - {P(1,0,2)} - {P(2,1,0)})"
        out+=f"""theorem cof_translate{i}{j} (v : Vector3 S) (hx : IsFinite v.x) (hy : IsFinite v.y) (hz : IsFinite v.z) :
    num ((Matrix4x4.translate v).cofactor {i} {j}) = num ({want(i,j)} : S) := by
  show num ({ex} : S) = _
  neg_simp [hx, hy, hz]
"""
out+="""/-- **C108** (3D): inverting the matrix of a translation gives exactly the opposite translation. -/
theorem C108_translate3 (v : Vector3 S) (hv : AllFinite v) :
    (∃ n, (Matrix4x4.translate v).inverse = .ok n ∧ (n == Matrix4x4.translate (-v)) = true) ∧
    ∃ t, Transform3.tryFrom (Matrix4x4.translate v) = .ok t ∧ (t == Transform3.translate v) = true := by
  rw [Vector3.allFinite] at hv
  obtain ⟨hx, hy, hz⟩ := hv
  have d : num ((Matrix4x4.translate v).detOf (Matrix4x4.translate v).adjugate) = num (one : S) := by
    show num ((one : S) * (Matrix4x4.translate v).cofactor 0 0 + zero * (Matrix4x4.translate v).cofactor 0 1
      + zero * (Matrix4x4.translate v).cofactor 0 2 + v.x * (Matrix4x4.translate v).cofactor 0 3) = _
    rw [IEEE.num_add, IEEE.num_add, IEEE.num_add, IEEE.num_mul, IEEE.num_mul, IEEE.num_mul, IEEE.num_mul, cof_translate00 v hx hy hz,
      cof_translate01 v hx hy hz, cof_translate02 v hx hy hz, cof_translate03 v hx hy hz]
    neg_simp [hx]
  have z : ((Matrix4x4.translate v).detOf (Matrix4x4.translate v).adjugate == zero) = false := by
    rw [beq_congr d rfl, Bool.eq_false_iff]
    intro h
    rw [beq_iff, val_zero, val_one] at h
    exact one_ne_zero h.2.2
  have e : ∃ n, (Matrix4x4.translate v).inverse = .ok n ∧ (n == Matrix4x4.translate (-v)) = true := by
    unfold Matrix4x4.inverse
    simp only [bne, z, Bool.not_false, if_true]
    refine ⟨_, rfl, ?_⟩
    rw [Matrix4x4.beq_iff]
    intro i hi
    rw [Matrix4x4.divs]
    refine beq_of_num' (num_div_of_one ?_ d) ?_
    · interval_cases i
"""
for k in range(16):
    i,j=divmod(k,4)
    out+=f"      · exact cof_translate{j}{i} v hx hy hz\n"
out+="""    · interval_cases i
"""
for k in range(16):
    i,j=divmod(k,4)
    w="finite_one" if i==j else (f"(finite_neg.2 h{'xyz'[i]})" if j==3 else "finite_zero")
    out+=f"      · exact {w}.not_nan\n"
out+="""  refine ⟨e, ?_⟩
  obtain ⟨n, hn, en⟩ := e
  refine ⟨⟨Matrix4x4.translate v, n⟩, by unfold Transform3.tryFrom; rw [hn]; rfl, ?_⟩
  show ((Matrix4x4.translate v == Matrix4x4.translate v) && (n == Matrix4x4.translate (-v))) = true
  rw [en, Bool.and_true, Matrix4x4.beq_iff]
  intro i hi
  refine beq_of_num' rfl ?_
  interval_cases i
"""
for k in range(16):
    i,j=divmod(k,4)
    w="finite_one" if i==j else (f"h{'xyz'[i]}" if j==3 else "finite_zero")
    out+=f"  · exact {w}.not_nan\n"
k=s.rindex("end\nend VecMath")
s=s[:k]+out+"end\nend VecMath\n"
open('/tmp/d/FloatInvAffineC.lean','w').write(s)
