import re,math,random
src=open('/repo/src/Math/Matrix.inl',errors='replace').read().split('\n')
orders=['XYZ','XZY','YXZ','YZX','ZXY','ZYX','XYX','XZX','YXY','YZY','ZXZ','ZYZ']
def get(o):
    r={}
    for kind,name in (('set','Set3x3PartRotateEuler'+o),('ext','ExtractEuler'+o)):
        i=[k for k,l in enumerate(src) if ('void '+name+'(') in l][0]
        d=0;j=i
        while True:
            d+=src[j].count('{')-src[j].count('}')
            if d==0 and j>i: break
            j+=1
        body=src[i:j+1]
        body=[re.sub(r'//.*','',l) for l in body]
        args=re.findall(r'float\s*&?\s*(\w+)',body[0])
        r[kind]=(i,j+1,args,body)
    i,j,args,body=r['set']
    ents={}
    for l in body:
        for a,b,e in re.findall(r'm\[(\d)\]\[(\d)\]\s*=\s*([^;]+);',l): ents[int(a),int(b)]=e.strip()
    assert len(ents)==9
    sc={}
    for l in body:
        mm=re.search(r'SinCos\((\w+), (\w+), (\w+)\)',l)
        if mm: sc[mm[1]]=(mm[2],mm[3]); assert mm[2]=='s'+mm[1] and mm[3]=='c'+mm[1]
    i2,j2,args2,body2=r['ext']
    assert args==args2,(args,args2)
    br=[];cur=None;cond=None
    txt='\n'.join(body2)
    conds=re.findall(r'if \(([^)]*)\)',txt)
    ass=re.findall(r'(\w+) = ([^;]+);',txt)
    assert len(ass)==9
    brs=[dict(ass[0:3]),dict(ass[3:6]),dict(ass[6:9])]
    return dict(args=args,ents=ents,conds=conds,brs=brs,set=(i+1,j),ext=(i2+1,j2))
D={o:get(o) for o in orders}
def R(ax,a):
    c,s=math.cos(a),math.sin(a)
    return {'X':[[1,0,0],[0,c,-s],[0,s,c]],'Y':[[c,0,s],[0,1,0],[-s,0,c]],'Z':[[c,-s,0],[s,c,0],[0,0,1]]}[ax]
def mul(a,b): return [[sum(a[i][k]*b[k][j] for k in range(3)) for j in range(3)] for i in range(3)]
def pe(e,env):
    e=e.replace('2.f','2.').replace('1.f','1.').replace('0.f','0.')
    return eval(e,dict(env,asin=math.asin,acos=math.acos,atan2=math.atan2,pi=math.pi))
def setm(o,ang):
    d=D[o];env={}
    for n,a in zip(d['args'],ang): env['s'+n]=math.sin(a);env['c'+n]=math.cos(a)
    return [[pe(d['ents'][i,j],env) for j in range(3)] for i in range(3)]
def ext(o,m,snap=1e-9):
    d=D[o];env={'m':m}
    a,b=d['conds']
    i,j=map(int,re.findall(r'm\[(\d)\]\[(\d)\]',a)[0])
    v=m[i][j]
    k=0 if -1+snap<v<1-snap else (1 if v<0 else 2)
    return [pe(d['brs'][k][n],env) for n in d['args']]
def diff(a,b): return max(abs(a[i][j]-b[i][j]) for i in range(3) for j in range(3))
if __name__=='__main__':
  for o in orders:
    w=0;w2=0;g=[0,0]
    for t in range(200):
        ang=[random.uniform(-3.1,3.1) for _ in range(3)]
        m=mul(mul(R(o[0],ang[0]),R(o[1],ang[1])),R(o[2],ang[2]))
        w=max(w,diff(m,setm(o,ang)))
        w2=max(w2,diff(m,setm(o,ext(o,m))))
        for q,mid in enumerate((-math.pi/2,math.pi/2) if o[0]!=o[2] else (math.pi,0)):
            m=mul(mul(R(o[0],ang[0]),R(o[1],mid)),R(o[2],ang[2]))
            g[q]=max(g[q],diff(m,setm(o,ext(o,m))))
    print(o,D[o]['args'],D[o]['conds'],'%.1e %.1e %.1e %.1e'%(w,w2,*g))
