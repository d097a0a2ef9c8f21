import sys
sys.argv=['x']
from fractions import Fraction as Fr
exec(open('/tmp/w/fl.py').read().split('for name')[0])
for name,p,emin in (("f32",24,-149),("f64",53,-1074)):
    rnd,sq=mk(p,emin)
    for n in range(2,12):
        found=None
        for num in list(range(1,400)):
            for x in (Fr(num), rnd(Fr(num,10)), Fr(2)**(p-1)+num):
                s=x
                for _ in range(n-1): s=rnd(s+x)
                m=rnd(s/n)
                if m!=x: found=(x,m,num);break
            if found:break
        print(name,n,found)
