# Spec/SqlWords.lean from the pattern strings of parser.rs and the kinds of terminals
import re,sys
src=open('/repo/src/sql/parser.rs').read().split('\n')
pats=[]
for l in src[7443:7529]:
    m=re.match(r'\s*\(r?"(.*)", (true|false)\),',l)
    if m: pats.append(m.group(1))
assert len(pats)==84
kinds=re.search(r'inductive Kind where\n(.*?)\n  deriving',open('/verif/lean/Verif/Spec/SqlGrammar.lean').read(),re.S).group(1)
names=re.findall(r'\| (\S+)',kinds)
assert len(names)==83,len(names)
special={'!=':'ne','(':'lpar',')':'rpar','*':'star','+':'plus',',':'comma','-':'minus','.':'dot','/':'slash','<':'lt','<=':'le','=':'eq','>':'gt','>=':'ge','||':'bars'}
first=[('STRING_LIT',"string"),('HEX_LIT','hex'),('NUMERIC_LIT_1','numeric1'),('ID','ident'),('NUMERIC_LIT_2','numeric2')]
out=[]
for i,p in enumerate(pats[:-1]):
    if i<5: out.append(f'(some .{first[i][0]}, {first[i][1]})'); continue
    body=p[2:-1]
    if '[' in body:
        cl=re.findall(r'\[(\w+)\]|(_)',body)
        cl=[a or b for a,b in cl]
        name=''.join(c[0] for c in cl)
        assert name in names,name
        def esc(c): return ''.join(x if ord(x)<128 else '\\u{%x}'%ord(x) for x in c)
        def esc(c): return ''.join(x if ord(x)<128 else '\\u%04x'%ord(x) for x in c)
        out.append(f'(some .{name}, word [{", ".join(chr(34)+esc(c)+chr(34) for c in cl)}])')
    else:
        t=body.replace('\\\\','')
        out.append(f'(some .{special[t]}, word [{", ".join(chr(34)+c+chr(34) for c in t)}])')
out.append('(none, spaces)')
print(',\n'.join('  '+x for x in out))
