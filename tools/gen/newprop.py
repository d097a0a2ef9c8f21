import sys
# usage: newprop.py file  (file: line to insert before first def upd()
s=open('/tmp/w/props.py').read()
ins=open(sys.argv[1]).read()
i=s.index("def upd(")
s=s[:i]+ins.rstrip("\n")+"\n"+s[i:]
open('/tmp/w/props.py','w').write(s)
