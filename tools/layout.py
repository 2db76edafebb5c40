#!/usr/bin/env python3
"""Derive flattened field-size lists of Go records from their declarations (used to write
lean/Verif/Model/Layout.lean). Usage: layout.py file Type..."""
import re,sys
def parse(path):
    types={}
    cur=None
    for ln,l in enumerate(open(path),1):
        m=re.match(r'type (\w+) struct \{',l)
        if m: cur=m.group(1); types[cur]=[ln,[],None]; continue
        if cur and l.startswith('}'): types[cur][2]=ln; cur=None; continue
        if cur:
            l=re.sub(r'/\*.*?\*/',' ',l); l=re.sub(r'//.*','',l); l=re.sub(r'`.*?`','',l).split()
            if len(l)==1: types[cur][1].append((l[0],l[0]))
            elif len(l)>=2: types[cur][1].append((l[0],l[1]))
    return types
S={'uint8':1,'byte':1,'uint16':2,'uint32':4,'uint64':8,'FeatureCode':2,'OpCode':1}
def sizes(types,t,pre=''):
    out=[]
    for n,ty in types[t][1]:
        m=re.match(r'\[(\d+)\](\w+)',ty)
        k=1
        if m: k=int(m.group(1)); ty=m.group(2)
        if ty in S: out.append((pre+n,k*S[ty]))
        else:
            for i in range(k): out+=sizes(types,ty,pre+n+(f'[{i}]' if m else '')+'.')
    return out
if __name__=='__main__':
    ty=parse(sys.argv[1])
    for t in sys.argv[2:]:
        s=sizes(ty,t)
        print(t,ty[t][0],ty[t][2],'total',sum(x for _,x in s),'fields',len(s))
        off=0
        for n,x in s:
            print('  ',off,n,x); off+=x
