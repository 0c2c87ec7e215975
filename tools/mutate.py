#!/usr/bin/env python3
"""Run seeded wrong programs: tools/mutate.py MUTANTS.json
Each mutant: {"definition","file","old","new","edit","claim"} (+optional "count": which occurrence).
Works in /tmp/mut (a copy of /verif/lean), rebuilds, reports failing theorems, appends to seeded/LOG.jsonl."""
import json,sys,subprocess,re,os,shutil
SRC='/verif/lean'; W='/tmp/mut/lean'
def sh(c): return subprocess.run(c,shell=True,capture_output=True,text=True)
def sync():
    os.makedirs(W,exist_ok=True)
    sh(f"rm -rf {W} && cp -a {SRC} {W}")
def decl_at(path,line):
    ls=open(path).read().split('\n')
    for i in range(min(line,len(ls))-1,-1,-1):
        m=re.match(r'\s*(?:private |protected |@\[[^\]]*\] )*(theorem|lemma|def|example|instance|abbrev)\s*(\S*)',ls[i])
        if m and not ls[i].startswith('  '): return (m.group(1),m.group(2) or 'example@%d'%(i+1))
    return ('?','?')
class R: pass
def build(grace=45):
    """lake build, ended `grace` seconds after its first error (later failures are not needed)."""
    import time,signal
    o=open('/tmp/mut/out.txt','w')
    p=subprocess.Popen(f"cd {W} && exec lake build 2>&1",shell=True,stdout=o,start_new_session=True)
    t=None
    while p.poll() is None:
        time.sleep(1)
        if t is None and re.search(r'^error:',open('/tmp/mut/out.txt').read(),re.M): t=time.time()
        if t is not None and time.time()-t>grace:
            os.killpg(p.pid,signal.SIGTERM)
            time.sleep(2)
            break
    p.wait()
    r=R(); r.stdout=open('/tmp/mut/out.txt').read(); r.returncode=p.returncode
    return r
def main():
    muts=json.load(open(sys.argv[1]))
    log='/verif/seeded/LOG.jsonl'
    sync()
    for m in muts:
        p=f"{W}/Verif/{m['file']}"
        s=open(p).read()
        n=s.count(m['old'])
        if n==0: print('NOT FOUND',m['definition'],m['edit']); continue
        k=m.get('count',1)
        if n>1 and 'count' not in m: print('AMBIGUOUS',n,m['definition'],m['edit']); continue
        parts=s.split(m['old'])
        t=m['old'].join(parts[:k])+m['new']+m['old'].join(parts[k:])
        open(p,'w').write(t)
        r=build()
        open(p,'w').write(s)
        out=r.stdout
        fails=[]; mods=set()
        for mm in re.finditer(r'error: (Verif/\S+?\.lean):(\d+):\d+',out):
            d=decl_at(f"{W}/{mm.group(1)}",int(mm.group(2)))
            nm=d[1]
            if nm not in fails: fails.append(nm)
        for mm in re.finditer(r'^- (Verif\S*)',out,re.M): mods.add(mm.group(1))
        verdict='killed' if r.returncode!=0 else 'SURVIVED'
        print(verdict,m['definition'],'|',m['edit'],'|',fails[:8])
        sys.stdout.flush()
        rec={"definition":m['definition'],"edit":m['edit'],"claim":m['claim'],"theorems_failed":fails,
             "modules_failed":sorted(mods),"theorems_tightened":m.get('tightened',[]),"result":verdict}
        if m.get('log',True): open(log,'a').write(json.dumps(rec)+'\n')
main()
