from vk import *
import re,sys
names={'ar2abar':'ar-to-abar-vk.bin','bar2abar':'bar-to-abar-vk.bin','abar2ar':'abar-to-ar-vk.bin','abar2bar':'abar-to-bar-vk.bin'}
# rescue params from the Lean source text
src=open('/verif/lean/Verif/Rescue/Model.lean').read()
src=src[src.index('def blsParams'):]
nums=[int(x) for x in re.findall(r'(?<![\w.])\d+(?![\w])',src[:src.index('alpha := 5')])]
nums=[x for x in nums]
mds=[nums[4*i:4*i+4] for i in range(4)]; ic=nums[16:20]; c=nums[20:24]; K=[nums[24+4*i:28+4*i] for i in range(4)]
ai=0x2E5F0FBADD72321CE14A56699D73F002217F0E679998F19933333332CCCCCCCD
assert pow(pow(7,5,r),ai,r)==7
def lin(m,v,c): return [ (c[i]+sum(m[i][j]*v[j] for j in range(4)))%r for i in range(4)]
def keys(a):
    inj=ic; prev=list(ic); out=[list(ic)]
    for i in range(24):
        e=a if i%2==0 else 5
        prev=[pow(x,e,r) for x in prev]; inj=lin(K,inj,c); prev=lin(mds,prev,inj); out.append(prev)
    return out
toy=keys(5); real=keys(ai)
sub={}
for a,b in zip(sum(toy,[]),sum(real,[])): sub[a]=b
def primroot(n):
    g=7 # generator of F_r^*
    return pow(g,(r-1)//n,r)
def ifft(v,w):
    n=len(v)
    if n==1: return v
    e=ifft(v[0::2],w*w%r); o=ifft(v[1::2],w*w%r)
    out=[0]*n; t=1
    for i in range(n//2):
        x=t*o[i]%r; out[i]=(e[i]+x)%r; out[i+n//2]=(e[i]-x)%r; t=t*w%r
    return out
def check(name, vkb, off, srs):
    u=lambda i: struct.unpack('<Q',vkb[i:i+8])[0]
    p=off
    def vec(l):
        nonlocal p
        n=u(p); p+=8; o=[]
        for _ in range(n):
            assert u(p)==l,(u(p),l); o.append(vkb[p+8:p+8+l]); p+=8+l
        return o
    cmq=vec(48); cms=vec(48); assert u(p)==48; cmqb=vkb[p+8:p+56]; p+=56
    k=[int.from_bytes(x,'little') for x in vec(32)]; assert u(p)==32; root=int.from_bytes(vkb[p+8:p+40],'little'); p+=40
    size=u(p); p+=8; n=u(p); p+=8; pis=[u(p+8*i) for i in range(n)]; p+=8*n
    lines=open(f'{name}.txt').read().split('\n')
    gl,nv=map(int,lines[0].split()); pub=ast.literal_eval(lines[1]); bl=ast.literal_eval(lines[2])
    W=[];S=[]
    for l in lines[3:3+gl]:
        a,b=l.split('] ['); W.append(ast.literal_eval(a+']')); S.append(ast.literal_eval('['+b))
    res={'size':size==gl,'pub':pis==pub}
    n=gl
    assert pow(root,n,r)==1 and pow(root,n//2,r)!=1
    if f'lagrange-srs-{n}.bin' in srs: base=srs[f'lagrange-srs-{n}.bin']; lag=True
    else: base=srs['srs.bin'][:n]; lag=False
    def com(v):
        if not lag:
            ni=pow(n,-1,r); v=[x*ni%r for x in ifft(v,pow(root,-1,r))]
        return enc(msm(v,base))
    for j in range(13):
        v=[sub.get(s[j],s[j]) for s in S]
        ok=com(v)==cmq[j]; res[f'q{j}']=ok
    qb=[0]*n
    for i in bl: qb[i]=1
    res['qb']=com(qb)==cmqb
    if True:
        flat=[w[j] for j in range(5) for w in W]
        pos={}
        for i,x in enumerate(flat): pos.setdefault(x,[]).append(i)
        perm=[0]*(5*n)
        for l in pos.values():
            for i,x in enumerate(l): perm[x]=l[(i+1)%len(l)]
        grp=[1]
        for _ in range(n-1): grp.append(grp[-1]*root%r)
        for j in range(5):
            v=[ k[x//n]*grp[x%n]%r for x in perm[j*n:(j+1)*n]]
            res[f's{j}']=com(v)==cms[j]
    res['all']=all(res.values())
    return res,p
if __name__=='__main__':
    srs={'srs.bin':pts('srs.bin'),'lagrange-srs-8192.bin':pts('lagrange-srs-8192.bin')}
    for nm in sys.argv[1:] or names:
        b=open(P+names[nm],'rb').read()
        print(nm,check(nm,b,2385,srs)[0],flush=True)
