# polys: dict exponent tuple (x1,y1,x2,y2,x3,y3,d)->int
from collections import defaultdict
names=['x1','y1','x2','y2','x3','y3','d']
def var(i):
    e=[0]*7; e[i]=1; return {tuple(e):1}
x1,y1,x2,y2,x3,y3,d=[var(i) for i in range(7)]
def c(n): return {(0,)*7:n}
def add(*ps):
    r=defaultdict(int)
    for p in ps:
        for m,k in p.items(): r[m]+=k
    return {m:k for m,k in r.items() if k}
def neg(p): return {m:-k for m,k in p.items()}
def sub(p,q): return add(p,neg(q))
def mul(*ps):
    r=c(1)
    for p in ps:
        t=defaultdict(int)
        for m,k in r.items():
            for n,l in p.items():
                t[tuple(a+b for a,b in zip(m,n))]+=k*l
        r={m:k for m,k in t.items() if k}
    return r
def crv(x,y): return sub(sub(mul(y,y),mul(x,x)),add(c(1),mul(d,x,x,y,y)))
one=c(1)
k=mul(d,x1,x2,y1,y2); kp=mul(d,x2,x3,y2,y3)
A=add(mul(x1,y2),mul(x2,y1)); B=add(mul(y1,y2),mul(x1,x2))
Ap=add(mul(x2,y3),mul(x3,y2)); Bp=add(mul(y2,y3),mul(x2,x3))
e=[crv(x1,y1),crv(x2,y2),crv(x3,y3)]
def goal(coord):
    if coord=='x':
        N1=add(mul(A,y3,sub(one,k)),mul(x3,B,add(one,k))); D1=add(sub(one,mul(k,k)),mul(d,x3,y3,A,B))
        N2=add(mul(x1,Bp,add(one,kp)),mul(y1,Ap,sub(one,kp))); D2=add(sub(one,mul(kp,kp)),mul(d,x1,y1,Ap,Bp))
    else:
        N1=add(mul(B,y3,add(one,k)),mul(x3,A,sub(one,k))); D1=sub(sub(one,mul(k,k)),mul(d,x3,y3,A,B))
        N2=add(mul(y1,Bp,add(one,kp)),mul(x1,Ap,sub(one,kp))); D2=sub(sub(one,mul(kp,kp)),mul(d,x1,y1,Ap,Bp))
    return sub(mul(N1,D2),mul(N2,D1))
lead=[(2,2,0,0,0,0,1),(0,0,2,2,0,0,1),(0,0,0,0,2,2,1)]
# e_i = -d x^2y^2 + ... ; leading coeff -1
def divide(p,extra=[]):
    p=dict(p); q=[{}, {}, {}]
    changed=True
    while True:
        hit=None
        for m in p:
            for i,l in enumerate(lead):
                if all(a>=b for a,b in zip(m,l)): hit=(m,i,l); break
            if hit: break
        if not hit: break
        m,i,l=hit
        t={tuple(a-b for a,b in zip(m,l)):-p[m]}
        q[i]=add(q[i],t)
        p=sub(p,mul(t,e[i]))
    return p,q
if __name__=='__main__':
    for co in 'xy':
        g=goal(co); r,q=divide(g)
        print(co,len(g),'rem',len(r),[len(a) for a in q])
def show(p):
    s=[]
    for m,k in p.items():
        t='*'.join(([str(abs(k))] if abs(k)!=1 or not any(m) else [])+[n if a==1 else f'{n}^{a}' for n,a in zip(names,m) if a])
        s.append(('-' if k<0 else '+')+' '+t)
    return ' '.join(s).lstrip('+ ')
def combo(co):
    r,q=divide(goal(co)); assert not r
    return ' + '.join(f'({show(a)})*h{i+1}' for i,a in enumerate(q))
