import re
def load(path):
    """rows: values of all top-level names just before each rising clock edge"""
    ids={}; cur={}; rows=[]; depth=0; clk=None
    names={}
    lines=open(path).read().split('\n'); i=0
    while True:
        l=lines[i]; i+=1
        if l.startswith('$scope'): depth+=1
        elif l.startswith('$upscope'): depth-=1
        elif l.startswith('$var'):
            t=l.split(); w=int(t[2]); idn=t[3]; nm=t[4]
            names.setdefault(nm,(idn,w)); cur[idn]=0
            if nm=='clk' or (nm.endswith('_clk') and clk is None): clk=idn if nm=='clk' or clk is None else clk
        elif l.startswith('$enddefinitions'): break
    def parse(l):
        if not l or l[0] in '#$': return None
        if l[0] in 'bB': v,idn=l[1:].split(); return idn,int(v,2) if set(v)<=set('01') else 0
        if l[0] in '01xz': return l[1:],int(l[0]) if l[0] in '01' else 0
        if l[0]=='s': v,idn=l[1:].split(); return idn,v
    snap=dict(cur)
    def chunk(ch,init):
        nonlocal snap
        pre=dict(cur); rose=False
        for idn,v in ch:
            if idn==clk and v==1 and cur[idn]==0: rose=True
            cur[idn]=v
        if rose and not init: rows.append({n:pre[d] for n,(d,w) in names.items()})
    ch=[]; t=None
    for l in lines[i:]:
        if l.startswith('#'):
            chunk(ch,t is None or t==0); ch=[]; t=int(l[1:])
        else:
            p=parse(l)
            if p: ch.append(p)
    chunk(ch,False)
    return rows,{n:w for n,(d,w) in names.items()}
if __name__=='__main__':
    import sys
    rows,w=load(sys.argv[1])
    ns=sys.argv[2:] or list(w)
    print(ns)
    for r in rows: print([r[n] for n in ns])
