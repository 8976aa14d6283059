#!/usr/bin/env python3
"""Extract the straight-line field programs of /repo/ecp_*.c (point_double, point_add_mixed, point_add_proj,
point_edwards2legacy, point_legacy2edwards; 64-bit and 32-bit halves) as Lean data."""
import re,glob,os,sys
out={}
for f in sorted(glob.glob('/repo/ecp_*.c')):
    n=os.path.basename(f)[4:-2]
    L=open(f).read().split('\n')
    half=0
    i=0
    while i<len(L):
        if L[i].startswith('#else /* __SIZEOF_INT128__ */'): half=1
        m=re.match(r'static void (point_double|point_add_mixed|point_add_proj|point_edwards2legacy|point_legacy2edwards)\((.*)',L[i])
        if m:
            name=m.group(1); start=i+1
            ptr={}; prog=[]
            tail=[]
            j=i+1
            body=''
            while L[j]!='}':
                body+=L[j]+'\n'; j+=1
            for a,b,c in re.findall(r'limb_t \*(\w+) = (?:(\w)->)?(\w+);',body):
                ptr[a]=(b,c)
            stm=re.findall(r'fiat_'+n+r'_(\w+)\(([^;]*)\);',body)
            for op,args in stm:
                args=[x.strip() for x in args.split(',')]
                op=op.replace('carry_','')
                prog.append((op,args))
            out[(n,half,name)]=(start,j+1,ptr,prog)
            i=j
        i+=1
if __name__=='__main__':
    groups={}
    for k,(s,e,ptr,prog) in out.items():
        key=(k[2],str(sorted(ptr.items())),str(prog))
        groups.setdefault(key,[]).append((k[0],k[1],s,e))
    for key,v in groups.items():
        print(key[0],key[1]); print(key[2]); 
        for x in v: print('   ',x)
