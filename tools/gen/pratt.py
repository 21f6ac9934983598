import random,math
def isp(n):
    if n<2: return False
    for q in (2,3,5,7,11,13,17,19,23,29,31,37):
        if n%q==0: return n==q
    d=n-1;s=0
    while d%2==0: d//=2;s+=1
    for a in (2,3,5,7,11,13,17,19,23,29,31,37):
        x=pow(a,d,n)
        if x in(1,n-1): continue
        for _ in range(s-1):
            x=x*x%n
            if x==n-1: break
        else: return False
    return True
def rho(n):
    if n%2==0: return 2
    while True:
        y=random.randrange(1,n);c=random.randrange(1,n);m=128
        g=r=q=1
        while g==1:
            x=y
            for _ in range(r): y=(y*y+c)%n
            k=0
            while k<r and g==1:
                ys=y
                for _ in range(min(m,r-k)):
                    y=(y*y+c)%n; q=q*abs(x-y)%n
                g=math.gcd(q,n); k+=m
            r*=2
        if g==n:
            g=1
            while g==1:
                ys=(ys*ys+c)%n; g=math.gcd(abs(x-ys),n)
        if g!=n: return g
known=[74058212732561358302231226437062788676166966415465897661863160754340907,31757755568855353,75445702479781427272750846543864801,1919519569386763,198211423230930754013084525763697,276602624281642239937218680557139826668747,72106336199]
def fac(n):
    if n==1: return []
    if isp(n): return [n]
    for k in known:
        if n%k==0 and n!=k: return sorted([k]+fac(n//k))
    for q in range(2,100000):
        if n%q==0: return sorted([q]+fac(n//q))
    g=rho(n)
    return sorted(fac(g)+fac(n//g))
done={}
def pratt(p):
    if p in done or p<100: return
    f=fac(p-1)
    fs=sorted(set(f))
    for q in fs: pratt(q)
    a=2
    while pow(a,p-1,p)!=1 or any(pow(a,(p-1)//q,p)==1 for q in fs): a+=1
    done[p]=(a,[(q,f.count(q)) for q in fs])
    print(p,a,done[p][1],flush=True)
if __name__=='__main__':
    pratt(2**255-19)
    pratt(2**252+27742317777372353535851937790883648493)
