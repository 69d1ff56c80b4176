#!/usr/bin/env python3
"""Systematic seeded bugs.

usage: sweep.py OUT.jsonl [--per N] [--model M1,M2,..] MODULE...

The modules (paths under lean/Verif, without .lean) are concatenated, in order, into one file, so that a theorem that no
longer proves does not stop the others.  Every `def` of the modules given with --model (default: the first) is edited in up to
N ways by small operators (a literal, a field, a comparison, a connective, an arithmetic sign), one edit at a time, and the
file is checked until the first error.  A mutant whose definition no longer type checks is skipped.  A line is written for every
mutant: definition, edit, first theorem that failed (or null: survived)."""
import sys,re,json,subprocess,os,random
from concurrent.futures import ThreadPoolExecutor
root='/verif/lean/Verif/'
args=sys.argv[1:]
out=args.pop(0); per=2; models=None; jobs=4; only=None; skip=0
while args and args[0].startswith('--'):
    o=args.pop(0)
    if o=='--per': per=int(args.pop(0))
    if o=='--model': models=args.pop(0).split(',')
    if o=='--jobs': jobs=int(args.pop(0))
    if o=='--only': only=args.pop(0)
    if o=='--skip': skip=int(args.pop(0))
mods=args; models=models or [mods[0]]
names={m.replace('/','.') for m in mods}
imps=[];parts=[]
for m in mods:
    t=open(root+m+'.lean').read()
    for i in re.findall(r'^import (\S+)',t,re.M):
        if i.startswith('Verif.') and i[6:] in names: continue
        if i not in imps: imps.append(i)
    t=re.sub(r'^import .*\n','',t,flags=re.M)
    t=re.sub(r'\btxt\b','txtv',t)
    parts.append((m,'section\n'+t+'\nend\n'))
head=''.join(f'import {i}\n' for i in imps)
text=head; spans={}
for m,t in parts:
    spans[m]=(len(text),len(text)+len(t)); text+=t
OPS=[]
def cands(body):
    c=[]
    for m in re.finditer(r'(?<![\w.\'«])(\d+)(?![\w.])',body): c.append((m.start(1),m.end(1),str(int(m.group(1))+1)))
    sw={'.c1':'.c2','.c2':'.c1','.l1':'.l2','.l2':'.l1','.n1':'.n2','.n2':'.n1','.x':'.y','.y':'.x','.NBT':'.INT','.INT':'.NBT','.npl':'.n2','.NR':'.NP','.NP':'.NR','.mf':'.mt','.mt':'.mf'}
    for a,b in sw.items():
        for m in re.finditer(re.escape(a)+r'(?![\w])',body): c.append((m.start(),m.end(),b))
    for a,b in [(' ≤ ',' < '),(' < ',' ≤ '),(' ≠ ',' = '),(' ∧ ',' ∨ '),(' ∨ ',' ∧ '),(' && ',' || '),(' || ',' && '),(' + ',' - '),(' - ',' + '),(' * ',' + '),(' == ',' != '),(' != ',' == '),('.isSome','.isNone'),('.isNone','.isSome'),('true','false'),('false','true'),(' = ',' ≠ '),('¬ ',''),('.1)','.2)'),('.2)','.1)'),('.fst','.snd'),('.snd','.fst')]:
        for m in re.finditer(re.escape(a),body): c.append((m.start(),m.end(),b))
    return c
defs=[]
for m in models:
    a,b=spans[m]
    seg=text[a:b]
    for d in re.finditer(r'^(?:@\[[^\]]*\]\s*)?(?:noncomputable )?(?:def|abbrev) (\S+).*?(?=\n\s*\n|\n/-|\n(?:def|theorem|instance|end|namespace|abbrev|structure|section|variable|@\[|open|inductive|private)\b|\Z)',seg,re.S|re.M):
        blk=d.group(0)
        k=blk.find(':=')
        if k<0: k=blk.find('\n  |')
        if k<0: continue
        ns=re.findall(r'^(namespace|end) (\S+)',seg[:d.start()],re.M)
        st=[]
        for w,n in ns:
            if w=='namespace': st.append(n)
            elif st and st[-1]==n: st.pop()
        q='.'.join(st+[d.group(1)])
        if only and not re.search(only,q): continue
        defs.append((m,q,a+d.start(),a+d.end(),a+d.start()+k+2))
rnd=random.Random(1)
jobsl=[]
for m,q,s,e,bs in defs:
    body=text[bs:e]
    c=cands(body)
    rnd.shuffle(c)
    for x,y,r in c[:per]: jobsl.append((m,q,s,e,bs+x,bs+y,r))
jobsl=jobsl[skip:]
print(len(defs),'definitions',len(jobsl),'mutants',flush=True)
def enclosing(t,line):
    ls=t.split('\n')
    for i in range(min(line,len(ls))-1,-1,-1):
        mm=re.match(r'(?:@\[[^\]]*\]\s*)?(?:private |protected )?(?:theorem|lemma|example|instance|def|abbrev)\s*(\S*)',ls[i])
        if mm: return mm.group(0)
    return '?'
def run(ix):
    m,q,s,e,x,y,r=jobsl[ix]
    t=text[:x]+r+text[y:]
    l0=text.count('\n',0,s)+1; l1=text.count('\n',0,e)+1
    fn=f'/tmp/sweep/m{os.getpid()}_{ix}.lean'
    open(fn,'w').write(t)
    p=subprocess.Popen(['timeout','300','lake','env','lean','-M','6000','-DmaxHeartbeats=200000',fn],cwd='/verif/lean',stdout=subprocess.PIPE,stderr=subprocess.STDOUT,text=True)
    first=None;inv=False
    for line in p.stdout:
        g=re.match(r'.*?\.lean:(\d+):\d+: error',line)
        if g:
            n=int(g.group(1))
            if l0<=n<=l1: inv=True
            else: first=enclosing(t,n)
            p.kill(); break
    p.wait()
    subprocess.run(['pkill','-f',fn])
    os.remove(fn)
    ctx=text[max(s,x-40):min(e,y+30)].replace('\n',' ')
    res={'definition':f'{m}: {q}','edit':f'`{text[x:y].strip()}` -> `{r.strip()}` in `{ctx}`','failed':first,'caught':bool(first)}
    if inv: return None
    return res
with ThreadPoolExecutor(jobs) as ex, open(out,'w') as f:
    sv=0;n=0
    for res in ex.map(run,range(len(jobsl))):
        if res is None: continue
        n+=1
        f.write(json.dumps(res,ensure_ascii=False)+'\n');f.flush()
        if not res['caught']:
            sv+=1; print('SURVIVED',res['definition'],'|',res['edit'],flush=True)
print(n,'valid',sv,'survived')
