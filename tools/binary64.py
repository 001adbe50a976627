#!/usr/bin/env python3
"""Generates the rounding steps of lean/Verif/Props/Binary64.lean: evaluates binary64 operations exactly and emits
one Lean fact per rounding (each is then proved in Lean, so nothing here is trusted)."""
from fractions import Fraction as F
import math
class T:
    def __init__(s): s.facts={}; s.order=[]
    def lit(s,x):
        x=F(x)
        if x.denominator==1: t=str(abs(x.numerator))
        else: t=f"({abs(x.numerator)} / {x.denominator})"
        return t if x>=0 else f"(-{t})"
    def rnd(s,x):   # exact Fraction -> (rounded Fraction,e,m,tie)
        if x==0: return F(0),0,0,False
        a=abs(x); e=math.floor(math.log2(a.numerator)-math.log2(a.denominator))
        while F(2)**e>a: e-=1
        while F(2)**(e+1)<=a: e+=1
        y=a*F(2)**(52-e); m=math.floor(y); fr=y-m; tie=fr==F(1,2)
        if fr>F(1,2) or (tie and m%2): m+=1
        r=F(m)/F(2)**(52-e)
        return (r if x>0 else -r),e,m,tie
    def emit(s,expr,r,e,m,kind):
        if expr not in s.facts:
            s.facts[expr]=(r,e,m,kind); s.order.append(expr)
    def op(s,o,a,b):
        a,b=F(a),F(b)
        x={'+':a+b,'-':a-b,'*':a*b}[o] if o!='/' else a/b
        expr=f"{s.lit(a)} {o} {s.lit(b)}"
        r,e,m,tie=s.rnd(x)
        s.emit(expr,r,e,m,('zero' if x==0 else ('neg' if x<0 else 'pos'))+('tie' if tie else ''))
        return r
    def sqrt(s,a):
        a=F(a)
        if a==0:
            s.emit("Real.sqrt 0",F(0),0,0,'sqrt0'); return F(0)
        # integer sqrt with plenty of bits
        k=200
        lo=math.isqrt(a.numerator*a.denominator*4**k); x=F(lo,a.denominator*2**k)
        r,e,m,tie=s.rnd(x)
        s.emit(f"Real.sqrt {s.lit(a)}",r,e,m,'sqrt')
        return r
    def sub(s,a,b): return [s.op('-',x,y) for x,y in zip(a,b)]
    def add(s,a,b): return [s.op('+',x,y) for x,y in zip(a,b)]
    def dot(s,a,b):
        t=F(0)
        ps=[s.op('*',x,y) for x,y in zip(a,b)]
        for p in ps: t=s.op('+',t,p)
        return t
    def norm(s,v): return s.sqrt(s.dot(v,v))
    def unit(s,v):
        n=s.norm(v); return [s.op('/',x,n) for x in v]
    def smul(s,t,v): return [s.op('*',t,x) for x in v]
    def projv(s,v,w): return s.smul(s.op('/',s.dot(v,w),s.dot(v,v)),v)
    def dist(s,a,b): return s.norm(s.sub(b,a))
    def fpl(s,x):
        return s.lit(x)
    def lean(s,name):
        out=[]
        for i,ex in enumerate(s.order):
            r,e,m,kind=s.facts[ex]
            st=f"theorem {name}{i} : roundNearest 53 ({ex}) = {s.lit(r)} := by\n"
            if kind=='zero': pr="  norm_num [roundNearest_zero]"
            elif kind=='sqrt0': pr="  rw [Real.sqrt_zero, roundNearest_zero]"
            elif kind=='sqrt': pr=f"  refine rn53_sqrt {ci(e)} {m} (by norm_num) ?_ ?_ ?_ ?_ ?_ <;> norm_num"
            elif kind=='pos': pr=f"  refine rn53 {ci(e)} {m} ?_ ?_ ?_ ?_ ?_ <;> norm_num"
            elif kind=='postie': pr=f"  refine rn53_tie {ci(e)} {m} (by decide) ?_ ?_ ?_ ?_ ?_ <;> norm_num"
            elif kind=='neg': pr=f"  refine rn53_neg {ci(e)} {m} ?_ ?_ ?_ ?_ ?_ <;> norm_num"
            elif kind=='negtie': pr=f"  refine rn53_neg_tie {ci(e)} {m} (by decide) ?_ ?_ ?_ ?_ ?_ <;> norm_num"
            out.append(st+pr+"\n")
        return "\n".join(out), [f"{name}{i}" for i in range(len(s.order))]
def ci(e): return str(e) if e>=0 else f"(-{-e})"

def line_():
    t=T(); p=[0,0]; v=[1,3]; x=[0,1]
    t.dot(v,v)
    w=t.sub(x,p); q=t.add(p,t.projv(v,w))
    w=t.sub(q,p); q2=t.add(p,t.projv(v,w)); d=t.dist(q2,q)
    return t,[*q,d]
def plane_():
    t=T(); p=[0,0,0]; v=[1,2,0]; x=[0,1,0]
    w=t.sub(p,x); q=t.add(x,t.projv(v,w))
    u=t.unit(v); w=t.sub(q,p); d=t.dot(u,w)
    return t,[*q,d]
def circle_():
    t=T(); c=[0,0]; r=1; x=[1,1]
    u=t.unit(t.sub(x,c)); q=t.add(c,t.smul(r,u)); d=t.dist(c,q); e=t.op('-',d,1)
    return t,[*q,d,e]
def tri_():
    t=T(); A,B,C=[0,0],[4118,33],[9983,80]
    def side(p,q):
        v=t.sub(q,p); return t.norm(v)
    a=side(B,C); b=side(C,A); c=side(A,B)
    n=t.op('-',t.op('+',t.op('*',b,b),t.op('*',c,c)),t.op('*',a,a))
    d=t.op('*',t.op('*',2,b),c); r=t.op('/',n,d)
    return t,[a,b,c,n,d,r]
def cyl_():
    t=T(); p=[0,0,0]; v=[0,1,5]; x=[0,1,5]
    # axis distance
    w=t.sub(x,p); q=t.add(p,t.projv(v,w)); d=t.dist(q,x)
    # planes: see Model/Cylinder.lean betweenCapPlanes
    u=t.unit(v); da=t.dot(u,t.sub(x,p))
    return t,[d,da,t.norm(v)]
def par_():
    t=T(); p=[0,0,0]; a=[1,1,0]; q=[0,0,0]; d=[1,1,0]; r=1
    t.dot(a,a)
    vc=t.unit(a); vl=t.unit(d); w=t.sub(q,p)
    L=t.sub(vl,t.smul(t.dot(vl,vc),vc)); P=t.sub(w,t.smul(t.dot(w,vc),vc))
    n=t.norm(L); A=t.op('*',n,n); B=t.op('*',2,t.dot(L,P)); m=t.norm(P); C=t.op('-',t.op('*',m,m),t.op('*',r,r))
    D=t.op('-',t.op('*',B,B),t.op('*',t.op('*',4,A),C)); R=t.sqrt(D)
    x=[t.op('/',t.op('+',-B,t.op('*',k,R)),t.op('*',2,A)) for k in (-1,1)]
    y=[t.add(q,t.smul(s,vl)) for s in x]
    return t,[A,B,C,D,R,*x,*y[0],*y[1]]
def rim_(a,r,q,d):
    t=T(); p=[0,0,0]; t.dot(a,a); t.dot(d,d)
    top=t.add(p,a)
    def cap(c):
        w=t.sub(q,c); k=t.op('/',-t.dot(a,w),t.dot(a,d)); y=t.add(q,t.smul(k,d))
        return y,t.dist(y,c)
    caps=[cap(p),cap(top)]
    vc=t.unit(a); vl=t.unit(d); w=t.sub(q,p)
    L=t.sub(vl,t.smul(t.dot(vl,vc),vc)); P=t.sub(w,t.smul(t.dot(w,vc),vc))
    n=t.norm(L); A=t.op('*',n,n); B=t.op('*',2,t.dot(L,P)); m=t.norm(P); C=t.op('-',t.op('*',m,m),t.op('*',r,r))
    D=t.op('-',t.op('*',B,B),t.op('*',t.op('*',4,A),C)); R=t.sqrt(D)
    x=[t.op('/',t.op('+',-B,t.op('*',k,R)),t.op('*',2,A)) for k in (-1,1)]
    y=[t.add(q,t.smul(s,vl)) for s in x]
    h=[t.dot(vc,t.sub(z,p)) for z in y]
    return t,[*[v for c,e in caps for v in (*c,e)],*vl,A,B,C,D,R,*x,*y[0],h[0],*y[1],h[1]]
def rima_(): return rim_([0,0,1],2,[17,0,4],[55,0,11])
def rimb_(): return rim_([0,0,3],2,[8,2,8],[6,2,5])
EXAMPLES={'line':line_,'plane':plane_,'circle':circle_,'tri':tri_,'cyl':cyl_}
EXAMPLES2={'par':par_}
EXAMPLES3={'rima':rima_,'rimb':rimb_}
def write(ex,path,use):
    out=["import Verif.Lemmas.RoundNearest",f"/-! # Roundings of binary64 used in `{use}` (generated by tools/binary64.py) -/","","namespace SkSpatial.Binary64",""]
    for k,f in ex.items():
        t,info=f(); src,names=t.lean(k+"_"); out.append(src)
        print(k,[t.lit(x) for x in info],[float(x) for x in info],len(names))
    out.append("end SkSpatial.Binary64")
    open('/verif/lean/Verif/Lemmas/'+path,'w').write("\n".join(out)+"\n")
if __name__=='__main__':
    write(EXAMPLES,'Binary64.lean','Props/Binary64.lean')
    write(EXAMPLES2,'Binary64Cyl.lean','Props/Rounding18.lean')
    write(EXAMPLES3,'Binary64Rim.lean','Props/Rounding21.lean')
