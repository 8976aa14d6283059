#!/usr/bin/env python3
"""Seeded-bug harness.  usage: mutate.py muts.json out.jsonl
Each mutation {def,file,old,new,edit,claim[,extra]} is applied to a scratch copy of /verif/lean (never to /verif), the copy is
rebuilt; a theorem whose proof breaks gets its proof cut (only in the scratch copy), so that the build can go on;
at the end the property theorems that broke or depend on a broken lemma are listed."""
import sys, json, re, subprocess, os, shutil
SRC='/verif/lean'; W='/tmp/mut'; CUT='so'+'rry'
START=re.compile(r'^(?:@\[[^\]]*\]\s*)?(?:private |protected |noncomputable )*(theorem|lemma|example|def|instance|structure|inductive|abbrev)\b\s*([^\s:({\[]*)')
def sync():
    subprocess.run(['rsync','-a','--delete',SRC+'/',W+'/'],check=True) if shutil.which('rsync') else (shutil.rmtree(W,ignore_errors=True), subprocess.run(['cp','-a',SRC,W],check=True))
def targets(mu):
    # property modules that use the edited module; those resting on the per-curve computations are left out (hours of kernel time)
    # unless the mutation names its targets
    if 'targets' in mu: return mu['targets']
    import glob
    imp={}
    for f in glob.glob(SRC+'/Verif/**/*.lean',recursive=True):
        m=f[len(SRC)+1:-5].replace('/','.'); imp[m]=re.findall(r'^import (Verif\.[\w.]+)',open(f).read(),re.M)
    def clo(m,seen):
        for x in imp.get(m,[]):
            if x not in seen: seen.add(x); clo(x,seen)
        return seen
    me=mu['file'][:-5].replace('/','.'); r=[]
    heavy={m for m in imp if '.Ecp.' in m and me in clo(m,{m})}
    for m in sorted(imp):
        if '.Props.' in m:
            c=clo(m,{m})
            if me in c and not (c & heavy): r.append(m)
    # if the claim names properties, only the modules with their theorems
    ids=set(re.findall(r'C\d\d',mu['claim']))
    if ids:
        q=[m for m in r if ids & set(re.findall(r'^theorem (C\d\d)_',open(SRC+'/'+m.replace('.','/')+'.lean').read(),re.M))]
        if q: return q
    return r
T=['Verif']
def build():
    p=subprocess.run(['lake','build']+T,cwd=W,capture_output=True,text=True,timeout=3600)
    out=p.stdout+p.stderr
    errs=[]
    for m in re.finditer(r'^error: (Verif/[^:\s]+\.lean):(\d+):(\d+): ?(.*)',out,re.M): errs.append((m.group(1),int(m.group(2)),m.group(4)))
    return p.returncode,errs,out
def decls(lines):
    r=[]
    for i,l in enumerate(lines):
        m=START.match(l)
        if m: r.append((i,m.group(1),m.group(2)))
    return r
def cut(path,bad):
    lines=open(path).read().split('\n'); ds=decls(lines); names=[]
    todo={}
    for ln in bad:
        c=[d for d in ds if d[0]<=ln-1]
        if not c: continue
        todo[c[-1][0]]=c[-1]
    for st,kind,name in sorted(todo.values(),reverse=True):
        nxt=[d[0] for d in ds if d[0]>st]; end=nxt[0] if nxt else len(lines)
        # back up over doc comments / attributes / blank lines / end / namespace of the following declaration
        body='\n'.join(lines[st:end])
        names.append((name or kind+'@'+str(st+1)))
        m=re.search(r'\n(?=/--|/-!|end |namespace |section|open |@\[|set_option|attribute|variable)',body)
        tail=''
        if m: tail=body[m.start():]; body=body[:m.start()]
        if kind=='example': new='example : True := trivial'
        elif kind in('theorem','lemma'):
            depth=0; pos=None; j=0
            while j<len(body):
                ch=body[j]
                if ch in '([{⟨': depth+=1
                elif ch in ')]}⟩': depth-=1
                elif body.startswith(':=',j) and depth==0:
                    lst=body.rfind('\n',0,j)+1
                    if not re.search(r'\b(let|have)\b',body[lst:j]): pos=j; break
                j+=1
            if pos is None: new=body
            else: new=body[:pos]+':= '+CUT
        else: new=body; names[-1]='(def) '+names[-1]
        lines[st:end]=(new+tail).split('\n')
    open(path,'w').write('\n'.join(lines))
    return names
def cprops():
    r=[]
    for d,_,fs in os.walk(W+'/Verif/Props'):
        for f in fs:
            path=os.path.join(d,f)
            if T!=['Verif'] and path[len(W)+1:-5].replace('/','.') not in T: continue
            s=open(path).read()
            r+=re.findall(r'^theorem (C\d\d_\w+)',s,re.M)
    return sorted(r)
def spaces():
    # namespaces of the property modules, besides Gost
    r=set()
    for t in T:
        p=W+'/'+t.replace('.','/')+'.lean'
        if os.path.exists(p): r|={n if n.startswith('Gost') else 'Gost.'+n for n in re.findall(r'^namespace (\S+)',open(p).read(),re.M)}
    return sorted(r)
muts=json.load(open(sys.argv[1])); out=sys.argv[2]
for mu in muts:
    sync(); T=targets(mu)
    p=W+'/'+mu['file']; s=open(p).read()
    n=s.count(mu['old'])
    if n<1: print('NOT FOUND',mu['def'],mu['old']); continue
    open(p,'w').write(s.replace(mu['old'],mu['new'],1))
    for (f,o,nw) in mu.get('extra',[]):
        t=open(W+'/'+f).read(); assert o in t,(f,o); open(W+'/'+f,'w').write(t.replace(o,nw,1))
    failed=[]; log=''
    for rnd in range(14):
        rc,errs,log=build()
        if rc==0: break
        by={}
        for f,l,msg in errs: by.setdefault(f,set()).add(l)
        if not by: break
        new=[]
        for f,ls in by.items(): new+=cut(W+'/'+f,ls)
        failed+=[x for x in new if x not in failed]
        if not new or all(x.startswith('(def)') for x in new): break
    aff=[]
    if rc==0:
        cs=cprops()
        open(W+'/Ax.lean','w').write(''.join('import '+t+'\n' for t in T)+'open Gost\n'+''.join('open '+n+'\n' for n in spaces())+'\n'.join(f'#print axioms {c}' for c in cs))
        q=subprocess.run(['lake','env','lean','Ax.lean'],cwd=W,capture_output=True,text=True)
        txt=q.stdout
        for m in re.finditer(r"'([\w.]+)' depends on axioms: \[([^\]]*)\]",txt):
            if 'sorryAx' in m.group(2): aff.append(m.group(1).split('.')[-1])
        os.remove(W+'/Ax.lean')
    rec={'definition':mu['def'],'edit':mu['edit'],'claim_broken':mu['claim'],'failed_theorems':failed,'affected_property_theorems':aff,'build_completed':rc==0,'theorems_tightened':[]}
    open(out,'a').write(json.dumps(rec,ensure_ascii=False)+'\n')
    print(mu['def'],'->',failed[:6],aff[:12],rc,flush=True)
