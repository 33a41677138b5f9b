"""My own simulation of the loader on the transcribed data, to explore it (not part of any proof)."""
from shipped import *
from collections import OrderedDict, defaultdict
import sys
d=raw_dict(); SI=dict(prefixes('SI')); DATA=dict(prefixes('DATA')); OGF=dict(prefixes('OGF'))
so,do,oo=orders('SI_order'),orders('DATA_order'),orders('OGF_order')
ID=('x',)
def kind_decls(k,v):
    b=k.split('_')[0]; out=[]
    ent=list(v.items()) if isinstance(v,dict) else [(u,()) for u in v]
    if '_NAMES' in k:
        for u,ss in ent:
            for s in ss: out+= [(s,u,ID),(u,s,ID)]
    if '_SPACES' in k:
        for r in '-_':
            for u,ss in ent:
                if ' ' in u: out+=[(u,u.replace(' ',r),ID)]*2
                for s in ss:
                    if ' ' in s: out+=[(s.replace(' ',r),s,ID),(s,s.replace(' ',r),ID)]
    def pref(tab,i):
        for u,_ in ent:
            for p,l in tab.items(): out.extend([(p+u,u,l[i]),(u,p+u,('rev',l[i]))])
    if '_SI' in k and b in so[0]: pref(SI,0)
    elif '_SI' in k and b in so[1]: pref(SI,1)
    elif '_SI' in k and b in so[2]: pref(SI,2)
    elif '_linearSI' in k and b in so[2]: pref(SI,0)
    if '_DATA' in k and b in do[0]: pref(DATA,0)
    if '_DATA' in k and b in do[1]: pref(DATA,1)
    if '_OGF' in k and b in oo[2]: pref(OGF,2)
    if '_PLURALwS' in k:
        for u,_ in ent: out+=[(u,u+'s',ID),(u+'s',u,ID)]
        if '_UPPER' in k:
            for u,_ in ent: out+=[(u,u.upper()+'S',ID),(u.upper()+'S',u,ID)]
        if '_LOWER' in k:
            for u,_ in ent: out+=[(u,u.lower()+'s',ID),(u.lower()+'s',u,ID)]
    for fl,f in (('_UPPER',str.upper),('_LOWER',str.lower)):
        if fl in k:
            for u,ss in ent:
                for s in (u,)+tuple(ss): out+=[(s,f(s),ID),(f(s),s,ID)]
    return out
decl=[]
src={}
for k,v in d.items():
    for x in kind_decls(k,v): decl.append(x+(k,))
for a,b,e,l in explicit(): decl.append((a,b,e,'explicit:%d'%l))
first={}
for a,b,e,k in decl: first.setdefault((a,b),(e,k))
rev=[u for k,v in d.items() if '_REVERSE' in k for u in v]
final=dict(first)
for u in rev:
    for (a,b),(e,k) in list(final.items()):
        if a==u and b!=u and (b,a) not in final: final[(b,a)]=(('rev',e),'REVERSE')
def comp():
    par={}
    def find(x):
        par.setdefault(x,x)
        while par[x]!=x: par[x]=par[par[x]]; x=par[x]
        return x
    for a,b in final: par[find(a)]=find(b)
    g=defaultdict(set)
    for x in list(par): g[find(x)].add(x)
    return list(g.values())
from fractions import Fraction as Fr
def val(e,x,fvf=None):
    if e[0]=='x': return x
    if e[0]=='lit': return e[1]
    if e[0]=='pow': return e[1]**e[2]
    if e[0]=='fvf': return fvf
    if e[0]=='rev': return x/val(e[1],Fr(1),fvf)
    a,b=val(e[1],x,fvf),val(e[2],x,fvf)
    return {'add':a+b,'sub':a-b,'mul':a*b}[e[0]] if e[0]!='div' else a/b
if __name__=='__main__':
    print(len(decl),len(first),len(final),len(rev))
    asym=[(a,b,final[(a,b)]) for a,b in final if (b,a) not in final]; print('asym',asym)
    outs={a for a,b in final}; print('dangling',{b for a,b in final if b not in outs})
    for c in sorted(comp(),key=len,reverse=True):
        # consistency
        start=sorted(c,key=len)[0]
        # affine potential: to-start functions (k,m): base = k*x+m
        pot={start:(Fr(1),Fr(0))}; st=[start]; bad=[]
        adj=defaultdict(list)
        for (a,b),(e,k) in final.items():
            if a in c: adj[a].append((b,e,k))
        while st:
            a=st.pop()
            for b,e,k in adj[a]:
                try:
                    m0=val(e,Fr(0),Fr(7,5)); m1=val(e,Fr(1),Fr(7,5)); 
                    m2=val(e,Fr(2),Fr(7,5)); assert m2-m1==m1-m0
                except Exception as ex: bad.append((a,b,k,'nonaff')); continue
                s=m1-m0
                # b = s*a+m0 ; base=ka*a+ma => a=(b-m0)/s
                ka,ma=pot[a]; kb=ka/s; mb=ma-ka*m0/s
                if b not in pot: pot[b]=(kb,mb); st.append(b)
                elif pot[b]!=(kb,mb): bad.append((a,b,k,float(pot[b][0]/kb)))
        print(len(c),sorted(c,key=lambda s:(-len(s)))[:3],'BAD' if bad else 'ok',bad[:4],len(bad))
