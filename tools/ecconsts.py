import sys,re,subprocess

out=subprocess.run(['python3','/verif/tools/mkecparams.py'],capture_output=True,text=True).stdout
rows={}
for m in re.finditer(r'def (ec_\w+) : EcParams where\n((?:  .*\n)+)',out):
    d=dict(re.findall(r'  (\w+) := (\S+)',m.group(2)))
    rows[m.group(1)]={k:int(v,16) for k,v in d.items() if k!='nid'}
def cubmul(p,a,b,c,d):
    e=[0]*5
    for i in range(3):
        for j in range(3): e[i+j]+=c[i]*d[j]
    return ((e[0]-b*e[3])%p,(e[1]-a*e[3]-b*e[4])%p,(e[2]-a*e[4])%p)
def cubpow(p,a,b,c,e):
    r=(1,0,0)
    while e:
        if e&1:r=cubmul(p,a,b,r,c)
        c=cubmul(p,a,b,c,c);e>>=1
    return r
def witness(p,a,b):
    h=cubpow(p,a,b,(0,1,0),p)
    c=(h[0],(h[1]-1)%p,h[2])
    # inverse in F_p[x]/f = c^(p^3-2) 
    v=cubpow(p,a,b,c,p**3-2)
    assert cubmul(p,a,b,v,c)==(1,0,0)
    return v
D={'ec_tc26_256_paramSetA':0x605F6B7C183FA81578BC39CFAD518132B9DF62897009AF7E522C32D6DC7BFFB,
'ec_tc26_512_paramSetC':0x9E4F5D8C017D8D9F13A5CF3CDF5BFE4DAB402D54198E31EBDE28A0621050439CA6B39E0A515C06B304E2CE43E79E369E91A0CFC2BC2A22B4CA302DBB33EE7550}
if __name__=="__main__":
  for n,r in rows.items():
    p,a,b,q=r['p'],r['a'],r['b'],r['q']
    assert (r['y']**2-r['x']**3-a*r['x']-b)%p==0
    if r['cofactor']==1: print(n,witness(p,a,b)[0]%1000)
    else:
        d=D[n];S=(1-d)*pow(4,-1,p)%p;T=(1+d)*pow(6,-1,p)%p
        print(n,(S*S-3*T*T-a)%p,(2*T**3-T*S*S-b)%p,pow(d,(p-1)//2,p)==p-1,pow(S,(p-1)//2,p)==p-1)
