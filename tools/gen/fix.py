f='/verif/lean/Verif/Lemmas/Damp.lean'
s=open(f).read()
a=s.index("      have := log_le hy\n"); b=s.index("    refine e1.trans (le_trans (le_of_eq ?_) (mul_le_mul_of_nonneg_left hb u0.le))")
s=s[:a]+'''      have := F.rnd_mono (log_le hy)
      rw [F.rnd_of_has hh] at this
      refine this.trans ?_
      rcases abs_choice y with h | h <;> rw [h]
      · exact le_abs_self _
      · rw [F.rnd_neg]; exact neg_le_abs _
'''+s[b:]
a=s.index("theorem lt_overflow"); b=s.index("theorem abs_rnd_le")
s=s[:a]+s[b:]
s=s.replace("lt_overflow hx","finite_lt_overflow hx").replace("import Verif.Lemmas.Perturb\n","import Verif.Lemmas.Perturb\nimport Verif.Lemmas.Near\n")
s=s.replace("rw [← Int.cast_abs, ← Int.cast_abs, Int.cast_le] at this\n","rw [← Int.cast_abs, ← Int.cast_abs, Int.cast_le, Int.abs_eq_natAbs, Int.abs_eq_natAbs] at this\n")
open(f,'w').write(s)
