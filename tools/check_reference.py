"""Evaluate the reference series of Spec/Nut00b.lean and Spec/S00.lean and compare with the values published in the
SOFA test program (t_sofa_c): nut00b(2400000.5, 53736.0) and s00(2400000.5, 53736.0, x, y)."""
import re, math
D='/verif/lean/Verif/Spec/'
AS=math.pi/648000
t=((2400000.5-2451545.0)+53736.0)/36525
def rows(s,name):
    i=s.index('def '+name+' '); j=s.index('\n\n',i)
    return [tuple(map(int,m.split(','))) for m in re.findall(r'⟨([^⟩]*)⟩',s[i:j])]
s=open(D+'Nut00b.lean').read()
R=rows(s,'nut00b'); assert len(R)==77
F=[485868.249036+1717915923.2178*t,1287104.79305+129596581.0481*t,335779.526232+1739527262.8478*t,
   1072260.70369+1602961601.2090*t,450160.398036-6962890.5431*t]
F=[math.fmod(x,1296000)*AS for x in F]
dp=de=0
for r in reversed(R):
    a=sum(n*x for n,x in zip(r,F))
    dp+=(r[5]+r[6]*t)*math.sin(a)+r[7]*math.cos(a)
    de+=(r[8]+r[9]*t)*math.cos(a)+r[10]*math.sin(a)
dp=(dp/1e7-0.000135)*AS; de=(de/1e7+0.000388)*AS
print('dpsi',dp,'published',-0.9632552291148362783e-5); print('deps',de,'published',0.4063197106621159367e-4)
assert abs(dp+0.9632552291148362783e-5)<1e-18 and abs(de-0.4063197106621159367e-4)<1e-18
s=open(D+'S00.lean').read()
def poly(*c): return math.fmod(sum(x*t**i for i,x in enumerate(c)),1296000)*AS
F=[poly(485868.249036,1717915923.2178,31.8792,0.051635,-0.00024470),poly(1287104.793048,129596581.0481,-0.5532,0.000136,-0.00001149),
   poly(335779.526232,1739527262.8478,-12.7512,-0.001037,0.00000417),poly(1072260.703692,1602961601.2090,-6.3706,0.006593,-0.00003169),
   poly(450160.398036,-6962890.5431,7.4722,0.007702,-0.00005939),3.176146697+1021.3285546211*t,1.753470314+628.3075849991*t,
   (0.024381750+0.00000538691*t)*t]
tot=0
for k,c in enumerate([94.00,3808.35,-119.94,-72574.09,27.70,15.61]):
    v=c
    if k<5:
        for r in reversed(rows(s,'s00_%d'%k)):
            a=sum(n*x for n,x in zip(r,F)); v+=(r[8]*math.sin(a)+r[9]*math.cos(a))/100
    tot+=v*t**k
x,y=0.5791308486706011000e-3,0.4020579816732961219e-4
v=tot*1e-6*AS-x*y/2
print('s',v,'published',-0.1220036263270905693e-7)
assert abs(v+0.1220036263270905693e-7)<1e-18
print('ok')
