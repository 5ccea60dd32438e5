import re,glob,os,subprocess
files={}
for root,_,fs in os.walk('/repo'):
    if '/.git' in root: continue
    for f in fs:
        if f.endswith('.py'):
            files.setdefault(f,[]).append(os.path.join(root,f))
bad=0
for m in sorted(glob.glob('/verif/lean/Verif/Model/*.lean')):
    s=open(m).read()
    cur=None
    for c in re.finditer(r'/-[-!]?(.*?)-/',s,re.S):
        t=c.group(1)
        # tokens
        cur=None
        for tok in re.finditer(r'([\w/]+\.py)|(?<![\w.-])(\d+)-(\d+)(?: in)? `(\w+)`|(?<![\w.-])(\d+)-(\d+)',t):
            if tok.group(1):
                cur=os.path.basename(tok.group(1))
                path=tok.group(1)
            elif cur:
                a,b,name=(tok.group(2),tok.group(3),tok.group(4)) if tok.group(2) else (tok.group(5),tok.group(6),None)
                a,b=int(a),int(b)
                cand=[p for p in files.get(cur,[]) if p.endswith(path)]
                if not cand: print(m,'no file',path); continue
                L=[open(p).read().split('\n') for p in cand]
                if b>max(len(x) for x in L) or a>b: print(os.path.basename(m),cur,a,b,'out of range'); bad+=1
                if name and ' in `' not in tok.group(0):
                    ok=False; where=[]
                    for x in L:
                        for i,l in enumerate(x,1):
                            if re.search(r'(def|class) '+name+r'\b',l) or re.match(r'\s*'+name+r'\s*[:=]',l):
                                where.append(i)
                                if a-3<=i<=b: ok=True
                    if where and not ok: print(os.path.basename(m),cur,a,b,name,'at',where); bad+=1
print(bad)
