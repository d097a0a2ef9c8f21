s=open('/tmp/w/plane.py').read()
i=s.index("  rw [{P}.leAll] at wa wb\n  have key"); j=s.index("/-- **C110** ({w}): if no product overflows, the descent returns")
s=s[:i]+"""  obtain CLP := ha
  obtain CLQ := hb
  exact CLR
"""+s[j:]
s=s.replace("(wa : LeAll a.min a.max) (wb : LeAll b.min b.max) (ha : a.Clear n o)","(ha : a.Clear n o)").replace("{B}.clear_union ha.1 hb.1 (ha.2","{B}.clear_union (ha.2")
s=s.replace("  rw [List.all_eq_true] at *\n","  simp only [List.all_eq_true] at h ⊢\n").replace("  · rw [List.all_eq_true] at h\n    have := h q hq","  · have := h q hq")
s=s.replace("import Verif.Props.FloatSide\n","import Verif.Props.FloatSide\nimport Verif.Props.FloatRayMono\n")
s=s.replace("obtain CLP","obtain {clp}").replace("obtain CLQ","obtain {clq}").replace("exact CLR","exact {clr}")
s=s.replace("""theorem far_finite""","""theorem same_finite {x y : S} (h : Same x y) (hy : IsFinite y) : IsFinite x := by
  unfold IsFinite at *; rw [show den x = den y from h]; exact hy
theorem term_same {x y o : S} (h : Same x y) (hy : IsFinite (n * (y - o))) : IsFinite (n * (x - o)) :=
  same_finite ((Same.refl n).mul (h.sub (Same.refl o))) hy
theorem term_min {x y o : S} (hx : IsFinite (n * (x - o))) (hy : IsFinite (n * (y - o))) : IsFinite (n * (fmin x y - o)) := by
  rcases min_same (a := x) (b := y) with h | h
  · exact term_same h hx
  · exact term_same h hy
theorem term_max {x y o : S} (hx : IsFinite (n * (x - o))) (hy : IsFinite (n * (y - o))) : IsFinite (n * (fmax x y - o)) := by
  rcases max_same (a := x) (b := y) with h | h
  · exact term_same h hx
  · exact term_same h hy
theorem far_finite""")
open('/tmp/w/plane.py','w').write(s)
