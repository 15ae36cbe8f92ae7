#!/usr/bin/env python3
"""Rewrites test_data.rs from the values in it with the formats of lean/Verif/Model/TestSofa.lean and compares the bytes."""
from decimal import Decimal,getcontext,ROUND_HALF_EVEN
from fractions import Fraction
import re
def digits(d,x):
    f=abs(Fraction(x))
    if f==0: return 0,0
    import math
    k=math.floor(math.log10(float(f)))
    while Fraction(10)**(k+1)<=f: k+=1
    while Fraction(10)**k>f: k-=1
    le=k+1-d
    t=f/Fraction(10)**le
    m=round(t) # half-even
    e=le+d
    if m==10**d: return 10**(d-1),e+1
    return m,e
def sg(x): 
    import math
    return '-' if math.copysign(1,x)<0 else ''
def fmtE(w,d,x):
    m,e=digits(d,x)
    s=sg(x)+'0.'+str(m).rjust(d,'0')+'E'+('-' if e<0 else '+')+str(abs(e)).rjust(2,'0')
    return s.rjust(w)
def ld(x):
    m,e=digits(17,x)
    if m==0: return (sg(x)+'0.'+'0'*16).rjust(20)+' '*5
    if 0<=e<=17:
        return (sg(x)+str(m//10**(17-e))+'.'+ (str(m%10**(17-e)).rjust(17-e,'0') if e<17 else '')).rjust(20)+' '*5
    s=str(m)
    e-=1
    return (sg(x)+s[0]+'.'+s[1:]+'E'+('-' if e<0 else '+')+str(abs(e)).rjust(3,'0')).rjust(25)
def rec(items):
    out=' '; prev=None
    for it in items:
        if isinstance(it,str):
            if prev=='r': out+=' '
            out+=it; prev='s'
        else:
            out+=' '+ld(it); prev='r'
    return out+'\n'
def wmat(a):
    return rec(['['])+''.join('['+','.join(fmtE(25,17,v) for v in r)+'],' for r in a)+rec([']'])
T=open('/repo/crates/tofas/src/test_data.rs').read()
def data(name):
    i=T.index('pub const '+name+' '); j=T.index('= &[',i)+4; k=T.index('\n ];',j)
    return eval('['+T[j:k]+']')
o=rec(["use crate::common::*;"])
def inter(l):
    r=[]
    for i,x in enumerate(l): 
        if i: r.append(',')
        r.append(x)
    return r
def const(h,recs):
    return rec([h])+''.join(recs)+rec(['];'])
def flat(name): return lambda t: rec(['(']+inter(list(t))+['),'])
def pom(t):
    m=t[3]
    return rec(['(']+sum([[x,','] for x in t[:3]],[])+['[']+sum([['[']+inter(r)+['],'] for r in m],[])+[']),'])
def withmat(t): return rec(['(']+sum([[x,','] for x in t[:-1]],[]))+wmat(t[-1])+rec(['),'])
def bp(t): return rec(['(',t[0],',',t[1],',['])+wmat(t[2][0])+rec([','])+wmat(t[2][1])+rec([','])+wmat(t[2][2])+rec([']),'])
def cio(t): return rec(['('])+wmat(t[0])+rec([',',t[1],','])+wmat(t[2])+rec([','])+wmat(t[3])+rec(['),'])
for n,ty,f in [('POM00','(R,R,R,[[R;3];3])',pom),('NUT00B','(R,R,R,R)',flat(0)),('NUMAT','(R,R,R,[[R;3];3])',withmat),('BP00','(R,R,[[[R;3];3];3])',bp),
  ('ERA00','(R,R,R)',flat(0)),('PR00','(R,R,R,R)',flat(0)),('PNM00B','(R,R,[[R;3];3])',withmat),('C2I00B','(R,R,[[R;3];3])',withmat),('C2TCIO','([[R;3];3],R,[[R;3];3],[[R;3];3])',cio),
  ('S00','(R,R,R,R,R)',flat(0)),('C2T00B','(R,R,R,R,R,R,R,R,[[R;3];3])',withmat)]:
    o+=const(f'pub const {n}_DATA : &[{ty}] = &[',[f(t) for t in data(n+'_DATA')])
print(len(o),len(T),o==T)
if o!=T:
    a=o.split('\n');b=T.split('\n')
    for i,(x,y) in enumerate(zip(a,b)):
        if x!=y: print(i+1,repr(x[:150]),repr(y[:150])); break
