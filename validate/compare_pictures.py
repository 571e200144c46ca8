"""Paint what the model draws and compare with the recorded pictures, pixel by pixel.

First: (cd lean && lake env lean ../validate/drawn.lean.txt > /tmp/ops.txt); then: python3 compare_pictures.py [style...]
Pixels within two of the border of an ellipse or a triangle, and those in boxes of text, are not compared.
"""
import zlib,struct,os,sys,collections
R='/repo/bglib/image/resource/'
def png(f):
    d=open(f,'rb').read(); p=8; idat=b''
    while p<len(d):
        n,t=struct.unpack('>I4s',d[p:p+8]); c=d[p+8:p+8+n]; p+=12+n
        if t==b'IHDR': w,h,bd,ct,_,_,il=struct.unpack('>IIBBBBB',c)
        if t==b'IDAT': idat+=c
    assert bd==8 and ct==6 and il==0
    raw=zlib.decompress(idat); bpp=4; st=w*4; prev=bytearray(st); rows=[]; q=0
    for y in range(h):
        ft=raw[q]; row=bytearray(raw[q+1:q+1+st]); q+=1+st
        if ft==1:
            for i in range(bpp,st): row[i]=(row[i]+row[i-bpp])&255
        elif ft==2:
            for i in range(st): row[i]=(row[i]+prev[i])&255
        elif ft==3:
            for i in range(st): row[i]=(row[i]+(((row[i-bpp] if i>=bpp else 0)+prev[i])>>1))&255
        elif ft==4:
            for i in range(st):
                a=row[i-bpp] if i>=bpp else 0; b=prev[i]; c=prev[i-bpp] if i>=bpp else 0
                pp=a+b-c; pa=abs(pp-a); pb=abs(pp-b); pc=abs(pp-c)
                pr=a if pa<=pb and pa<=pc else (b if pb<=pc else c)
                row[i]=(row[i]+pr)&255
        rows.append(row); prev=row
    return w,h,rows
names={'red':(255,0,0),'black':(0,0,0),'white':(255,255,255),'green':(0,128,0),'blue':(0,0,255),'yellow':(255,255,0),'gray':(128,128,128),'silver':(192,192,192)}
def col(c):
    if c.startswith('#'):
        if len(c)==7: return (int(c[1:3],16),int(c[3:5],16),int(c[5:7],16),255)
        return (int(c[1]*2,16),int(c[2]*2,16),int(c[3]*2,16),255)
    return names[c]+(255,)
cur=None;files={}
for line in open('/tmp/ops.txt'):
    line=line.rstrip('\n')
    if line.startswith('FILE '):
        _,n,k=line.split(); cur=(n,k); files[cur]=[]; continue
    files[cur].append(line.split('|'))
P=lambda s: tuple(map(int,s.split(',')))
def inpoly(pts,x,y):
    # signed inside with margin; triangle convex
    s=[]
    for i in range(len(pts)):
        (x1,y1),(x2,y2)=pts[i],pts[(i+1)%len(pts)]
        l=((x2-x1)**2+(y2-y1)**2)**.5
        s.append(((x2-x1)*(y-y1)-(y2-y1)*(x-x1))/l if l else 0)
    a,b=min(s),max(s)
    if a>=1.5 or b<=-1.5: return 1
    if a<-1.5 and b>1.5: return 0
    return 2
def paint(ops,W,H):
    # colour per pixel, None = unknown
    img=[[(0,0,0,0)]*W for _ in range(H)]
    def put(x,y,c):
        if 0<=x<W and 0<=y<H: img[y][x]=c
    for o in ops:
        if o[0]=='rect':
            (x,y),(w,h)=P(o[1]),P(o[2]); c=col(o[3])
            for yy in range(max(0,y),min(H,y+h)):
                for xx in range(max(0,x),min(W,x+w)): img[yy][xx]=c
        elif o[0]in('text','image'):
            (x,y),(w,h)=P(o[1]),P(o[2])
            for yy in range(y,y+h):
                for xx in range(x,x+w): put(xx,yy,None)
        elif o[0]=='ellipse':
            (x,y),(w,h)=P(o[1]),P(o[2]); c=None if o[3]=='None' else col(o[3])
            cx,cy,rx,ry=x+w/2,y+h/2,w/2,h/2
            for yy in range(y-2,y+h+3):
                for xx in range(x-2,x+w+3):
                    r=(((xx-cx)/rx)**2+((yy-cy)/ry)**2)**.5
                    m=2/min(rx,ry)
                    if r<=1-m: put(xx,yy,c)
                    elif r<=1+m: put(xx,yy,None)
        elif o[0]=='polygon':
            pts=[P(q) for q in o[1].split(';')]; c=None if o[2]=='None' else col(o[2])
            xs=[p[0] for p in pts]; ys=[p[1] for p in pts]
            for yy in range(min(ys)-2,max(ys)+3):
                for xx in range(min(xs)-2,max(xs)+3):
                    r=inpoly(pts,xx,yy)
                    if r==1: put(xx,yy,c)
                    elif r==2: put(xx,yy,None)
    return img
if __name__=='__main__':
    only=sys.argv[1:]
    tot=collections.Counter()
    for (n,k),ops in files.items():
        f=R+n+'/test/'+k+'.png'
        if not os.path.exists(f) or (only and n not in only): continue
        if ops and ops[0][0].startswith('DRAW'): print(n,k,'model: no picture'); continue
        w,h,rows=png(f); img=paint(ops,w,h)
        same=bad=unk=0; first=None
        for y in range(h):
            r=rows[y]; m=img[y]
            for x in range(w):
                c=m[x]
                if c is None: unk+=1
                elif c==tuple(r[4*x:4*x+4]): same+=1
                else:
                    bad+=1
                    if first is None: first=(x,y,c,tuple(r[4*x:4*x+4]))
        tot['same']+=same;tot['bad']+=bad;tot['unk']+=unk
        print(n,k,'same',same,'bad',bad,'unknown',unk,first,flush=True)
    print(tot)
