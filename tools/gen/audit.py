import json,re,sys,glob
ids=sys.argv[1:]
props={}
for l in open('/verif/properties.jsonl'):
    d=json.loads(l); props[d['id']]=d
man={c['property']:c for c in json.load(open('/verif/MANIFEST.json'))['claims']}
src={}
for f in glob.glob('/verif/lean/Verif/**/*.lean',recursive=True):
    t=open(f).read()
    for m in re.finditer(r'^(?:private |protected )?theorem\s+([^\s:({\[]+)',t,re.M):
        # statement until ':=' at depth
        s=t[m.start():m.start()+6000]
        i=0;d=0;end=len(s)
        while i<len(s):
            c=s[i]
            if c in '([{⟨': d+=1
            elif c in ')]}⟩': d-=1
            elif s.startswith(':=',i) and d==0: end=i;break
            i+=1
        src.setdefault(m.group(1),re.sub(r'\s+',' ',s[:end]))
for i in ids:
    p=props[i]
    print('#',i,p['title'],'\n  ',p['statement'],'\n   Q:',p['quantifier'])
    th=man[i]['theorems']
    for x in th:
        n=x.split('.')[-1]
        s=src.get(n,'?? '+n)
        print('  -',s[:900])
