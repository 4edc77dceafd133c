#!/usr/bin/env python3
"""Generate lean/Verif/Model/DatabaseTable*.lean from /repo/src/database_mra_objects.rs and
/repo/src/database_manufacturers.rs (a purely textual translation of the straight-line
initialisation code; the generator fails on any statement it does not recognise)."""
import re,sys,json,os
src=open('/repo/src/database_mra_objects.rs').read()
body=src[src.index('pub fn init_objects'):]
line0=src[:src.index('pub fn init_objects')].count('\n')+1
# tokenizer
tok=re.compile(r'\s+|//[^\n]*|"(?:[^"\\]|\\.)*"|0x[0-9A-Fa-f]+|\d+|[A-Za-z_][A-Za-z0-9_]*|::|->|&|[(){}\[\];,.=:<>!]|.')
def tokens(s,base):
    out=[];line=base
    for m in tok.finditer(s):
        t=m.group(0)
        if not (t.isspace() or t.startswith('//')): out.append((t,line))
        line+=t.count('\n')
    return out
T=tokens(body,line0)
i=0
def peek(k=0): return T[i+k][0]
def eat(*ts):
    global i
    for t in ts:
        assert T[i][0]==t,(T[i],t,[x[0] for x in T[i:i+12]])
        i+=1
def val():
    global i
    t=T[i][0]; i+=1
    return t
def lit(t):
    if t.startswith('"'): return json.loads(t)
    return int(t,0)
eat('pub','fn','init_objects','(','&','mut','self',')','{')
eat('let','mut','prop_enums','=','Vec','::','new','(',')',';')
objects=[];cur=None;enums=[]
def string():
    s=lit(val()); eat('.','to_string','(',')'); return s
while peek()!='}':
    ln=T[i][1]
    if peek()=='let' or (peek()=='obj' and peek(1)=='='):
        if peek()=='let': eat('let','mut')
        eat('obj','=','self','.','create_standard_object','(')
        n=string(); eat(','); g=lit(val()); eat(','); c=lit(val())
        if peek()==',': eat(',')
        eat(')',';')
        assert cur is None, ln
        cur=dict(name=n,grp=g,cls=c,props=[],line=ln)
    elif peek()=='prop_enums':
        eat('prop_enums','.','push','(','self','.','create_standard_property_enum','(')
        c=lit(val()); eat(','); n=string(); eat(','); d=string()
        if peek()==',': eat(',')
        eat(')'); 
        if peek()==',': eat(',')
        eat(')',';')
        enums.append((c,n,d))
    elif peek()=='obj':
        eat('obj','.','add_standard_property','(')
        code=lit(val()); eat(','); n=string(); eat(','); ty=string(); eat(','); sz=lit(val()); eat(',')
        at=[]
        for _ in range(3):
            eat('property_string_to_attribute','('); at.append(lit(val())); eat(')',',')
        eat('&','mut','prop_enums')
        if peek()==',': eat(',')
        eat(')',';')
        cur['props'].append(dict(code=code,name=n,typ=ty,size=sz,attrs=at,enums=enums,line=ln)); enums=[]
    elif peek()=='self':
        eat('self','.','add_object','(','obj',')',';')
        cur['end']=ln
        objects.append(cur);cur=None
    else: raise Exception(T[i-3:i+10])
eat('}','}'); assert i==len(T) and cur is None and not enums
msrc=open('/repo/src/database_manufacturers.rs').read()
mb=msrc[msrc.index('pub fn init_manufactures'):]
T=tokens(mb,1);i=0
eat('pub','fn','init_manufactures','(','&','mut','self',')','{')
mans=[]
while peek()!='}':
    eat('self','.','add_standard_manufacture','(')
    c=lit(val()); eat(',')
    if peek()=='String': eat('String','::','from','('); n=lit(val()); eat(')')
    else: n=string()
    if peek()==',': eat(',')
    eat(')',';'); mans.append((c,n))
eat('}','}'); assert i==len(T)

def lstr(x):
    r=json.dumps(x,ensure_ascii=False)
    assert '\\u' not in r
    return r
def lh(n,w): return '0x%0*X'%(w,n)
def emit(path,imports,objs):
    with open(path,'w') as f:
        for m in imports: f.write('import %s\n'%m)
        f.write('/-!\nGenerated by tools/gen_database.py from src/database_mra_objects.rs. Do not edit.\n-/\n')
        f.write('namespace Uecho.Table\nset_option maxRecDepth 10000\n\n')
        for o in objs:
            nm='class_%02X%02X'%(o['grp'],o['cls'])
            for k,p in enumerate(o['props']):
                if len(p['enums'])>0:
                    f.write('/-- Enumeration values of property %s of class %02X%02X (src/database_mra_objects.rs, pushes before line %d). -/\n'%(lh(p['code'],2),o['grp'],o['cls'],p['line']))
                    f.write('def %s_enums_%d : List PropertyEnum := [\n'%(nm,k))
                    f.write(',\n'.join('  ⟨%s, %s, %s⟩'%(hex(c),lstr(n),lstr(d)) for c,n,d in p['enums']))
                    f.write(']\n\n')
            f.write('/-- Class %s (src/database_mra_objects.rs:%d-%d). -/\n'%(o['name'].replace('-/','- /'),o['line'],o['end']))
            f.write('def %s : ClassDef := ⟨%s, %s, %s, [\n'%(nm,lstr(o['name']),lh(o['grp'],2),lh(o['cls'],2)))
            f.write(',\n'.join('  ⟨%s, %s, %s, %d, .%s, .%s, .%s, %s⟩'%(lh(p['code'],2),lstr(p['name']),lstr(p['typ']),p['size'],p['attrs'][0],p['attrs'][1],p['attrs'][2], '%s_enums_%d'%(nm,k) if p['enums'] else '[]') for k,p in enumerate(o['props'])))
            f.write(']⟩\n\n')
        f.write('end Uecho.Table\n')
if __name__=='__main__':
    root=os.path.dirname(os.path.dirname(os.path.abspath(__file__)))+'/lean/Verif/Model/'
    N=6
    # balance by number of enums
    chunks=[];cur=[];w=0;tot=sum(30+len(p['enums']) for o in objects for p in o['props'])
    for o in objects:
        cur.append(o);w+=sum(30+len(p['enums']) for p in o['props'])
        if w>=tot/N: chunks.append(cur);cur=[];w=0
    if cur: chunks.append(cur)
    for k,c in enumerate(chunks): emit(root+'Table%d.lean'%(k+1),['Verif.Model.Database'],c)
    with open(root+'Table.lean','w') as f:
        for k in range(len(chunks)): f.write('import Verif.Model.Table%d\n'%(k+1))
        f.write('/-!\nGenerated by tools/gen_database.py. Do not edit.\n-/\nnamespace Uecho.Table\n\n')
        f.write('/-- The objects added by `StandardDatabase::init_objects` (src/database_mra_objects.rs:%d-%d), in order. -/\n'%(line0,src.count('\n')-1))
        f.write('def classes : List ClassDef := [\n  '+',\n  '.join(', '.join('class_%02X%02X'%(o['grp'],o['cls']) for o in objects[j:j+6]) for j in range(0,len(objects),6))+']\n\n')
        f.write('/-- The manufacturers added by `StandardDatabase::init_manufactures` (src/database_manufacturers.rs:26-365), in order. -/\n')
        f.write('def manufacturers : List Manufacture := [\n'+',\n'.join('  ⟨%s, %s⟩'%(lh(c,6),lstr(n)) for c,n in mans)+']\n\n')
        f.write('end Uecho.Table\n')
    print(len(chunks),'chunks')
