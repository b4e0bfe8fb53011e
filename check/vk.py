import struct,sys,ast
q=0x1a0111ea397fe69a4b1ba7b6434bacd764774b84f38512bf6730d2a0f6b0f6241eabfffeb153ffffb9feffffffffaaab
r=0x73eda753299d7d483339d80809a1d80553bda402fffe5bfeffffffff00000001
P='/repo/api/parameters/'
def pts(fn):
    b=open(P+fn,'rb').read()
    n1=struct.unpack('<I',b[:4])[0]
    if 'lagrange' in fn: b=b'0000'+b
    out=[]
    for i in range(n1):
        s=b[8+96*i:8+96*i+96]
        x=int.from_bytes(s[:48],'little'); yb=bytearray(s[48:]); fl=yb[47]&0xc0; yb[47]&=0x3f
        y=int.from_bytes(yb,'little')
        out.append(None if fl&0x40 else (x,y))
    return out
class VK: pass
def parse(b,off=0,short=False):
    u=lambda i: struct.unpack('<Q',b[i:i+8])[0]
    v=VK()
    return u,v
# jacobian
def dbl(p):
    if p is None: return None
    X,Y,Z=p
    A=X*X%q;B=Y*Y%q;C=B*B%q
    D=2*((X+B)*(X+B)-A-C)%q
    E=3*A%q;F=E*E%q
    X3=(F-2*D)%q
    return (X3,(E*(D-X3)-8*C)%q,2*Y*Z%q)
def add(p,o):
    if p is None: return o
    if o is None: return p
    X1,Y1,Z1=p;X2,Y2,Z2=o
    Z1Z1=Z1*Z1%q;Z2Z2=Z2*Z2%q
    U1=X1*Z2Z2%q;U2=X2*Z1Z1%q
    S1=Y1*Z2*Z2Z2%q;S2=Y2*Z1*Z1Z1%q
    H=(U2-U1)%q;R=(S2-S1)%q
    if H==0:
        if R==0: return dbl(p)
        return None
    HH=H*H%q;HHH=H*HH%q;V=U1*HH%q
    X3=(R*R-HHH-2*V)%q
    return (X3,(R*(V-X3)-S1*HHH)%q,Z1*Z2*H%q)
def aff(p):
    if p is None: return None
    zi=pow(p[2],-1,q);z2=zi*zi%q
    return (p[0]*z2%q,p[1]*z2*zi%q)
def msm(sc,ps,c=8):
    # signed small: map large to negative if near r
    items=[]
    for s,p in zip(sc,ps):
        if s==0 or p is None: continue
        if s>r//2: items.append((r-s,(p[0],-p[1]%q,1)))
        else: items.append((s,(p[0],p[1],1)))
    if not items: return None
    mb=max(s.bit_length() for s,_ in items)
    acc=None
    nw=(mb+c-1)//c
    for w in reversed(range(nw)):
        for _ in range(c): acc=dbl(acc)
        bk=[None]*(1<<c)
        for s,p in items:
            d=(s>>(w*c))&((1<<c)-1)
            if d: bk[d]=add(bk[d],p)
        run=None;tot=None
        for d in range((1<<c)-1,0,-1):
            run=add(run,bk[d]); tot=add(tot,run)
        acc=add(acc,tot)
    return aff(acc)
def enc(p):
    if p is None: return bytes(47)+b'\x40'
    b=bytearray(p[0].to_bytes(48,'little'))
    if p[1]>q-p[1]: b[47]|=0x80
    return bytes(b)
