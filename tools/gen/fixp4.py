s=open('/tmp/w/planer.py').read()
s=s.replace("le_iff_real finite_zero hn","Ideal.le_real finite_zero hn")
s=s.replace("""  rw [Bool.eq_iff_iff, lt_iff_real ({sm('p')}) finite_zero, lt_iff_real (Ideal.finite_add ({sm('q')}) (Ideal.finite_mul ({sm('r')}) finite_half)) finite_zero,
    Ideal.real_add""","""  rw [Bool.eq_iff_iff]
  refine (Ideal.lt_real ({sm('p')}) finite_zero).trans (Iff.trans ?_ (Ideal.lt_real (Ideal.finite_add ({sm('q')}) (Ideal.finite_mul ({sm('r')}) finite_half)) finite_zero).symm)
  rw [Ideal.real_add""")
open('/tmp/w/planer.py','w').write(s)
