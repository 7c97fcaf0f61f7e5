#!/usr/bin/env python3
"""Mutation tests: applies each edit of a list to a scratch copy of the Lean project, rebuilds, and
records which theorems fail.  usage: mutate.py list.py [first [last]]
The list defines M = [(file, definition, old, new, edit, claim), ...]; file is relative to Verif/Model."""
import sys,os,shutil,subprocess,re,json
src='/tmp/mutbase'; scratch='/tmp/mut'
shutil.rmtree(src,ignore_errors=True)
subprocess.run(['cp','-a','/verif/lean',src],check=True)
ns={}; exec(open(sys.argv[1]).read(),ns); M=ns['M']
lo=int(sys.argv[2]) if len(sys.argv)>2 else 0
hi=int(sys.argv[3]) if len(sys.argv)>3 else len(M)
log='/verif/seeded/LOG.jsonl'
def decl(path,line):
    name=None
    for i,l in enumerate(open(path),1):
        if i>line: break
        m=re.match(r'\s*(?:@\[.*?\]\s*)?(?:private |protected |local )*(theorem|lemma|def|instance|example|abbrev)\s*([\w\.\']*)',l)
        if m: name=(m.group(2) or m.group(1)) if m.group(1)!='example' else 'example@%d'%i
    return name
for k,(f,d,old,new,edit,claim) in list(enumerate(M))[lo:hi]:
    shutil.rmtree(scratch,ignore_errors=True)
    subprocess.run(['cp','-a',src,scratch],check=True)
    p=f'{scratch}/Verif/Model/{f}.lean'
    s=open(p).read()
    n=s.count(old)
    if n<1: print(k,'NOT FOUND',d); continue
    if n>1: print(k,'AMBIGUOUS',d,n); continue
    open(p,'w').write(s.replace(old,new))
    r=subprocess.run('timeout 1200 lake build 2>&1',shell=True,cwd=scratch,capture_output=True,text=True).stdout
    fails={}; compile_err=False
    for m in re.finditer(r'error: (Verif/[\w/]+\.lean):(\d+):\d+: (.*)',r):
        if m.group(1)==f'Verif/Model/{f}.lean': compile_err=True
        fails.setdefault(m.group(1)[6:-5],[])
        nm=decl(f'{scratch}/{m.group(1)}',int(m.group(2)))
        if nm not in fails[m.group(1)[6:-5]]: fails[m.group(1)[6:-5]].append(nm)
    out=[f'{mod}: {", ".join(map(str,v))}' for mod,v in fails.items()]
    ok='Build completed successfully' in r
    print(k,d,'SURVIVED' if ok else 'killed', 'MODEL ERROR' if compile_err else '', out[:6] if ok is False else '',flush=True)
    if compile_err: print(r[-1500:]); continue
    with open(log,'a') as g:
        g.write(json.dumps({"definition":f'Verif.Model.{f}: {d}',"edit":edit,"breaks":claim,"failed":out,"survived":ok,"tightened":[]})+'\n')
