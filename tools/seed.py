"""Applies one wrong edit at a time to a scratch copy of /verif/lean, rebuilds, and logs which
declarations no longer check.  usage: seed.py mutations.json [first [last]]"""
import json,subprocess,sys,shutil,os,re,time
SC='/tmp/mut/lean'
muts=json.load(open(sys.argv[1]))
a=int(sys.argv[2]) if len(sys.argv)>2 else 0
b=int(sys.argv[3]) if len(sys.argv)>3 else len(muts)
def sync():
    subprocess.run('rm -rf %s; mkdir -p /tmp/mut; cp -a /tmp/mut/clean %s'%(SC,SC),shell=True,check=True)
if not os.path.exists('/tmp/mut/clean'): subprocess.run('cp -a /verif/lean /tmp/mut/clean',shell=True,check=True)
def decl(path,line):
    L=open(path).read().split('\n')
    for i in range(min(line,len(L))-1,-1,-1):
        m=re.match(r'\s*(?:@\[.*?\]\s*)?(?:private |protected |noncomputable |scoped )*(theorem|def|example|instance|abbrev|structure|inductive|class|macro)\s*([^\s:({\[]*)',L[i])
        if m: return (m.group(2) or m.group(1)+'@'+str(i+1))
    return '?'
thm_mod={}
for f in os.listdir('/tmp/mut/clean/Verif/Props'):
    for m in re.finditer(r'^theorem (c\d\d_\w+)',open('/tmp/mut/clean/Verif/Props/'+f).read(),re.M): thm_mod[m.group(1)]=f[:-5]
for k in range(a,b):
    mu=muts[k]
    sync()
    p=SC+'/Verif/'+mu['file']
    s=open(p).read()
    n=s.count(mu['old'])
    if n<1 or (n>1 and not mu.get('multi')): print(k,'BAD MATCH',n,mu['def'],flush=True); continue
    s=s.replace(mu['old'],mu['new'],1 if not mu.get('all') else -1); open(p,'w').write(s)
    t=time.time()
    r=subprocess.run(['lake','build'],cwd=SC,capture_output=True,text=True)
    out=r.stdout+r.stderr
    errs=re.findall(r'error: (Verif/\S+?\.lean):(\d+):\d+',out)
    failed=[]
    for f,l in errs:
        d=f[6:-5].replace('/','.')+':'+decl(SC+'/'+f,int(l))
        if d not in failed: failed.append(d)
    ok=r.returncode==0
    bad=set(re.findall(r'^- (Verif\.\S+)$',out,re.M))
    # modules which transitively import a failed module
    imp={}
    for root,_,fs in os.walk(SC+'/Verif'):
        for f in fs:
            if f.endswith('.lean'):
                m=os.path.relpath(os.path.join(root,f),SC)[:-5].replace('/','.')
                imp[m]=re.findall(r'^import (Verif\.\S+)',open(os.path.join(root,f)).read(),re.M)
    ch=True
    while ch:
        ch=False
        for m in imp:
            if m not in bad and any(i in bad for i in imp[m]): bad.add(m); ch=True
    modelbroken=any(m.startswith('Verif.Model') for m in bad)
    claim_t=mu.get('theorems',[])
    survived=[c for c in claim_t if ('Verif.Props.'+thm_mod.get(c,'?')) not in bad]
    rec=dict(definition=mu['def'],edit=mu.get('edit') or (mu['old'].strip()+'  ==>  '+mu['new'].strip()),claim=mu['claim'],claim_theorems=claim_t,result='survived' if ok else ('did not compile as a model' if modelbroken else 'caught'),theorems_failed=failed[:25],modules_not_built=sorted(x for x in bad if x.startswith('Verif.Props')),claim_theorems_still_proved=survived,theorems_tightened=mu.get('tightened',[]),wall=round(time.time()-t))
    print(k,rec['result'],mu['def'],failed[:4],'STILL' if survived else '',survived,rec['wall'],flush=True)
    open('/tmp/mut/log.jsonl','a').write(json.dumps(rec,ensure_ascii=False)+'\n')
