p='/tmp/w/shadow2.py'
s=open(p).read()
s=s.replace('''      have := (ia p hp).2; have := (ib q hq).2
      exact lt_of_le_of_lt (by tauto) (lt_of_lt_of_le h (by tauto))
    · have := h _ cmin''','''      exact lt_of_le_of_lt (ia p hp).2{C[d+x]}.2 (lt_of_lt_of_le h (ib q hq).2{C[d+x]}.1)
    · have := h _ cmin''')
s=s.replace('''      have := (ia p hp).2; have := (ib q hq).2
      exact lt_of_le_of_lt (by tauto) (lt_of_lt_of_le h (by tauto))
''','''      exact lt_of_le_of_lt (ib q hq).2{C[d+x]}.2 (lt_of_lt_of_le h (ia p hp).2{C[d+x]}.1)
''')
s=s.replace('''  simp only [← not_lt]
  tauto
''','''  simp only [not_and_or, not_le]
''')
s=s.replace("import re\n","import re\nC={'2x':'.1','2y':'.2','3x':'.1','3y':'.2.1','3z':'.2.2'}\n")
open(p,'w').write(s)
