import random,math
p=21888242871839275222246405745257275088696311157297823662689037894645226208583
r=21888242871839275222246405745257275088548364400416034343698204186575808495617
def isp(n):
    if n<2:return False
    for q in (2,3,5,7,11,13,17,19,23,29,31,37):
        if n%q==0:return n==q
    d=n-1;s=0
    while d%2==0:d//=2;s+=1
    for a in (2,3,5,7,11,13,17,19,23,29,31,37):
        x=pow(a,d,n)
        if x in(1,n-1):continue
        for _ in range(s-1):
            x=x*x%n
            if x==n-1:break
        else:return False
    return True
def rho(n):
    if n%2==0:return 2
    while True:
        c=random.randrange(1,n);y=random.randrange(n);m=256;g=1;rr=1;q=1
        while g==1:
            x=y
            for _ in range(rr): y=(y*y+c)%n
            k=0
            while k<rr and g==1:
                ys=y
                for _ in range(min(m,rr-k)):
                    y=(y*y+c)%n;q=q*abs(x-y)%n
                g=math.gcd(q,n);k+=m
            rr*=2
        if g==n:
            g=1
            while g==1:
                ys=(ys*ys+c)%n;g=math.gcd(abs(x-ys),n)
        if g!=n:return g
def fac(n,known=()):
    out=[]
    for q in range(2,20000):
        while n%q==0: out.append(q);n//=q
    def f(n):
        if n==1:return
        if isp(n): out.append(n);return
        d=rho(n);f(d);f(n//d)
    f(n)
    return sorted(out)
if __name__=='__main__':
    print('r',fac(r-1),flush=True)
    print('p',fac(p-1),flush=True)
    print(p-r)
