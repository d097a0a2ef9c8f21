s=open('/tmp/w/plane.py').read()
s=s.replace("    bits=', '","    clp='⟨'+', '.join(f'⟨a{k}, A{k}⟩' for k in c)+'⟩'; clq='⟨'+', '.join(f'⟨b{k}, B{k}⟩' for k in c)+'⟩'\n    clr='⟨'+', '.join(f'⟨term_min (term_min a{k} b{k}) (term_max A{k} B{k}), term_max (term_min a{k} b{k}) (term_max A{k} B{k})⟩' for k in c)+'⟩'\n    bits=', '",1)
open('/tmp/w/plane.py','w').write(s)
