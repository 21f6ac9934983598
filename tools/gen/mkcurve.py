import sys; sys.path.insert(0,'/tmp/gen')
from assoc import combo
import textwrap
p=2**255-19
d=-121665*pow(121666,-1,p)%p
i=pow(2,(p-1)//4,p)
y=4*pow(5,-1,p)%p
x2=(y*y-1)*pow(d*y*y+1,-1,p)%p
x=pow(x2,(p+3)//8,p)
if (x*x-x2)%p: x=x*i%p
assert (x*x-x2)%p==0
if x&1: x=p-x
print(d,i,x,y)
w=lambda s:'\n'.join(textwrap.wrap(s,120,initial_indent='      ',subsequent_indent='      '))
open('/tmp/gen/assoc_x.txt','w').write(w(combo('x')))
open('/tmp/gen/assoc_y.txt','w').write(w(combo('y')))
