# Random cases for the floating point operations of Verif/Gen/B64.lean and Single.lean, with the results of this machine.
# Writes cases.lean; run with `lake env lean cases.lean` in /verif/lean, every list printed should be empty.
import random,struct,math
from fractions import Fraction
random.seed(5)
def lit(x):
    if x!=x: return "B64.nan"
    s="true" if math.copysign(1,x)<0 else "false"
    if math.isinf(x): return f"(B64.inf {s})"
    return f"(B64.fin {s} {int(Fraction(abs(x))*2**1074)})"
sp=[0.0,-0.0,1.0,-1.0,float('inf'),-float('inf'),float('nan'),5e-324,-5e-324,2.0**-1022,2.0**-1074*3,1.7976931348623157e308,-1.7976931348623157e308,0.1,3.0,2.0**53,2.0**53+2,1+2**-52,1-2**-53]
def rnd():
    k=random.random()
    if k<.25: return random.choice(sp)
    if k<.6: return struct.unpack('d',struct.pack('Q',random.getrandbits(64)))[0]
    if k<.8: return random.uniform(-2,2)
    return random.choice([-1,1])*random.randrange(1<<53)*2.0**random.choice([-1074,-1060,-560,-537,-30,0,100])
def div(a,b):
    if a!=a or b!=b: return math.nan
    if b==0:
        if a==0: return math.nan
        return math.copysign(math.inf,a)*math.copysign(1,b)
    return a/b
def f32(x):
    if x!=x or math.isinf(x): return x
    try: return struct.unpack('f',struct.pack('f',x))[0]
    except OverflowError: return math.copysign(math.inf,x)
def fma(a,b,c):
    if not all(map(math.isfinite,(a,b))): return a*b+c
    if not math.isfinite(c): return c
    r=Fraction(a)*Fraction(b)+Fraction(c)
    if r==0:
        p=a*b  # sign
        sp_=math.copysign(1,a)*math.copysign(1,b)
        if Fraction(a)*Fraction(b)==0 or c==0:
            if Fraction(a)*Fraction(b)==0 and c==0:
                return -0.0 if (sp_<0 and math.copysign(1,c)<0) else 0.0
        return 0.0
    try: return r.numerator/r.denominator
    except OverflowError: return math.inf if r>0 else -math.inf
def fr(r,sgn):
    if r==0: return sgn*0.0
    try:
        v=r.numerator/r.denominator
        return math.copysign(v,sgn) if v==0 else v
    except OverflowError: return math.copysign(math.inf,r)
L=[]
for _ in range(1500):
    a,b,c=rnd(),rnd(),rnd()
    L.append(("B64.add",(a,b),a+b)); L.append(("B64.sub",(a,b),a-b)); L.append(("B64.mul",(a,b),a*b)); L.append(("B64.div",(a,b),div(a,b)))
    f=fma(a,b,c)
    if f==0 and math.isfinite(a) and math.isfinite(b) and math.isfinite(c):
        r=Fraction(a)*Fraction(b)+Fraction(c)
        if r!=0: f=math.copysign(0.0,r)
    L.append(("B64.fma",(a,b,c),f))
    q=math.sqrt(a) if a>=0 else (a if a==0 else math.nan)
    L.append(("B64.sqrt",(a,),q))
    L.append(("B64.neg",(a,),-a))
    x,y=f32(a if random.random()<.5 else random.uniform(-9,9)*2.0**random.randint(-80,70)),f32(b if random.random()<.5 else random.uniform(-9,9)*2.0**random.randint(-80,70))
    L.append(("B64.to32",(a,),f32(a))); L.append(("B64.mul32",(x,y),f32(x*y)))
with open('cases.lean','w') as o:
    o.write("import Verif.Gen.Single\nopen Verif Verif.Gen\nset_option maxRecDepth 100000\n")
    n=0
    for i in range(0,len(L),100):
        o.write(f"def bad{i} : List (Nat × B64 × B64) := [\n"+",\n".join(f"({j}, {op} {' '.join(map(lit,args))}, {lit(r)})" for j,(op,args,r) in enumerate(L[i:i+100],i))+f"].filter fun p => decide (p.2.1 ≠ p.2.2)\n#eval bad{i}.map Prod.fst\n")
