from chk import *
b=open(P+'transfer-vk-specific.bin','rb').read()
u=lambda i: struct.unpack('<Q',b[i:i+8])[0]
srs={f:pts(f) for f in ('srs.bin','lagrange-srs-8192.bin','lagrange-srs-16384.bin','lagrange-srs-32768.bin')}
off=16
for n in range(1,7):
    if n>1:
        assert u(off)==6; off+=8
    for m in range(1,7):
        l=u(off); off+=8
        s=b[off:off+l]; off+=l
        i=next(i for i in range(len(s)) if struct.unpack('<Q',s[i:i+8])[0]==13 and struct.unpack('<Q',s[i+8:i+16])[0]==48)
        w=lambda i: struct.unpack('<Q',s[i:i+8])[0]
        nv,sz=w(i-49),w(i-41)
        lines=open(f't{n}{m}.txt').readline().split()
        res,_=check(f't{n}{m}',s,i,srs)
        print(n,m,sz,nv,(str(sz),str(nv))==tuple(lines),res['all'],[k for k in res if not res[k]],flush=True)
