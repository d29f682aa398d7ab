P=4294967291
def perm(x):
    if x>=P: return x
    r=x*x%P
    return r if x<=P//2 else P-r
M=0xffffffff
def sidx(s): return perm((perm(s)+0x682f0161)&M)
def soff(s): return perm((perm((s+1)&M)+0x46790905)&M)
def draw(s,k): 
    i=(sidx(s)+k)&M; o=soff(s)
    return perm(((perm(i)+o)&M)^0x5bf03635)
def rows(n,s,be=False):
    if n==4: return [draw(s,i)&15 for i in range(4)]
    if n==8: return [draw(s,i)&255 for i in range(8)]
    if n==16: return [draw(s,i)&0xffff for i in range(16)]
    if n==32: return [draw(s,i) for i in range(32)]
    l=n//64; R=[]
    for i in range(n):
        v=0
        for q in range(l):
            a=draw(s,2*(l*i+q)); b=draw(s,2*(l*i+q)+1)
            v=(v<<64)|((a<<32|b) if not be else (b<<32|a))
        R.append(v)
    return R
def inv(n,R):
    R=[(r,1<<(n-1-i)) for i,r in enumerate(R)]
    for c in range(n):
        bit=1<<(n-1-c)
        p=next((i for i in range(c,n) if R[i][0]&bit),None)
        if p is None: return None
        R[c],R[p]=R[p],R[c]
        for i in range(n):
            if i!=c and R[i][0]&bit: R[i]=(R[i][0]^R[c][0],R[i][1]^R[c][1])
    return [x[1] for x in R]
def leftnull(n,R):
    R=[(r,1<<(n-1-i)) for i,r in enumerate(R)]
    c=0; k=0
    for c in range(n):
        bit=1<<(n-1-c)
        p=next((i for i in range(k,n) if R[i][0]&bit),None)
        if p is None: continue
        R[k],R[p]=R[p],R[k]
        for i in range(n):
            if i!=k and R[i][0]&bit: R[i]=(R[i][0]^R[k][0],R[i][1]^R[k][1])
        k+=1
    if k==n: return None
    assert R[n-1][0]==0
    return R[n-1][1]
if __name__=='__main__':
    for n in (4,8,16,32,64,128,256):
        print(n,[ s for s in range(40) if inv(n,rows(n,s))][:5],[ s for s in range(40) if not inv(n,rows(n,s))][:3])
    print([s for s in range(3000) if all(inv(n,rows(n,s)) for n in (4,8,16,32,64,128))][:6])
