#!/usr/bin/env python3
"""Regenerate MANIFEST.json from the theorem names in lean/Verif/Props and tools/status.json,
and print what is missing. Status entries: id -> [status, note]."""
import json,re,glob,os
root=os.path.dirname(os.path.dirname(os.path.abspath(__file__)))
thms={}
for f in sorted(glob.glob(root+'/lean/Verif/Props/*.lean')):
    ns='Uecho'
    for line in open(f):
        m=re.match(r'namespace\s+(\S+)',line)
        if m: ns=m.group(1)
        m=re.match(r'\s*theorem\s+([A-Za-z0-9_.\']+)',line)
        if m and re.match(r'C\d+_',m.group(1)):
            thms.setdefault(m.group(1).split('_')[0],[]).append(ns+'.'+m.group(1))
props=[json.loads(l) for l in open(root+'/properties.jsonl')]
status=json.load(open(root+'/tools/status.json'))
claims=[]
for p in props:
    i=p['id']
    if i in status and thms.get(i):
        s,n=status[i]
        claims.append({"property":i,"status":s,"theorems":thms[i],"note":n})
    else:
        print('no claim yet:',i,p['title'], 'THEOREMS BUT NO STATUS' if thms.get(i) else '')
json.dump({"claims":claims},open(root+'/MANIFEST.json','w'),indent=1,ensure_ascii=False)
with open('/tmp/w/axioms.lean','w') as f:
    f.write('import Verif\n')
    for c in claims:
        for t in c['theorems']: f.write('#print axioms %s\n'%t)
print(len(claims),'claims',sum(len(c['theorems']) for c in claims),'theorems')
