import re,json
src=open('/repo/src/sql/parser.rs').read()
L=src.split('\n')
# action table
def arr(name):
    i=next(k for k,l in enumerate(L) if name in l)
    rows=[];j=i+1
    while L[j].strip()!='];':
        if L[j].strip().startswith('//'): rows.append([])
        else: rows[-1]+= [int(x) for x in L[j].replace(',',' ').split()]
        j+=1
    return rows,i+1,j+1
ACT,a0,a1=arr('const __ACTION')
EOF,e0,e1=arr('const __EOF_ACTION'); EOF=[r[0] for r in EOF]
# goto
i=next(k for k,l in enumerate(L) if 'fn __goto' in l)
goto={};j=i+2;cur=None
while True:
    l=L[j].strip()
    if l=='_ => 0,': break
    m=re.match(r'(\d+) => match state \{',l)
    if m: cur=int(m[1]); goto[cur]={'cases':[], 'def':None}
    elif re.match(r'(\d+) => (\d+),',l) and cur is None:
        m=re.match(r'(\d+) => (\d+),',l); goto[int(m[1])]={'cases':[],'def':int(m[2])}
    elif l=='},': cur=None
    else:
        m=re.match(r'([\d_ |]+) => (\d+),',l)
        ks=m[1].strip(); v=int(m[2])
        if ks=='_': goto[cur]['def']=v
        else:
            for k in ks.split('|'): goto[cur]['cases'].append((int(k),v))
    j+=1
g0,g1=i+1,j+3
# terminals
i=next(k for k,l in enumerate(L) if 'const __TERMINAL' in l)
T=[];j=i+1
while L[j].strip()!='];':
    T.append(re.match(r'r###"(.*)"###,',L[j].strip())[1]); j+=1
# reduces
red=[];k=0
for n in range(223):
    i=next(k for k,l in enumerate(L) if l.strip()=='pub(crate) fn __reduce%d<'%n)
    j=i
    body=[]
    while L[j]!='    }': body.append(L[j]); j+=1
    b='\n'.join(body)
    m=re.search(r'// (.*) = (.*) => (ActionFn\((\d+)\)|.*);',b)
    pops=re.findall(r'let __sym(\d+) = __pop_Variant(\d+)\(',b)
    push=re.search(r'__Symbol::Variant(\d+)\(__nt\)',b)[1]
    call=re.search(r'let __nt = super::__action(\d+)::<>\((.*)\);',b)
    ret=re.search(r'\n        \((\d+), (\d+)\)$',b)
    red.append(dict(n=n,line=i+1,end=j+1,com=m[0],lhs=m[1],rhs=m[2],act=int(call[1]),args=call[2],pops=[(int(a),int(c)) for a,c in pops],push=int(push),pop=int(ret[1]),nt=int(ret[2])))
json.dump(dict(ACT=ACT,EOF=EOF,goto=goto,T=T,red=red,lines=dict(act=(a0,a1),eof=(e0,e1),goto=(g0,g1))),open('ext.json','w'))
if __name__=='__main__':
    print(len(ACT),{len(r) for r in ACT},len(EOF),len(goto),len(T))
    for r in red: print(r['n'],r['com'],r['act'],r['pops'],r['push'],r['pop'],r['nt'],r['line'])
