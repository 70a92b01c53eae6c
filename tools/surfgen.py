#!/usr/bin/env python3
"""Half-edge tables of small surfaces, printed as Lean definitions (Lemmas/SurfDemo.lean)."""
def gen(name, facets, pts, doc):
    he=[]; idx={}
    for fi,f in enumerate(facets):
        n=len(f)
        for k in range(n):
            a,b=f[k],f[(k+1)%n]
            assert (a,b) not in idx
            idx[(a,b)]=len(he); he.append([a,b,fi])
    nx={}
    for fi,f in enumerate(facets):
        n=len(f)
        for k in range(n):
            nx[idx[(f[k],f[(k+1)%n])]]=idx[(f[(k+1)%n],f[(k+2)%n])]
    # border half-edges
    for (a,b) in list(idx):
        if (b,a) not in idx:
            idx[(b,a)]=len(he); he.append([b,a,None])
    for i,(a,b,f) in enumerate(he):
        if f is None:
            c=[j for j,(x,y,g) in enumerate(he) if g is None and x==b]
            assert len(c)==1
            nx[i]=c[0]
    pv={v:k for k,v in nx.items()}
    N=len(he)
    L=lambda l: '['+', '.join(map(str,l))+']'
    print(f'/-- {doc} -/')
    print(f'def {name} : Surf ℚ := ofTables')
    print('  '+L(nx[i] for i in range(N)))
    print('  '+L(pv[i] for i in range(N)))
    print('  '+L(idx[(he[i][1],he[i][0])] for i in range(N)))
    print('  '+L(he[i][1] for i in range(N)))
    print('  '+L('none' if he[i][2] is None else f'some {he[i][2]}' for i in range(N)))
    print('  '+L(idx[(f[0],f[1])] for f in facets))
    print('  '+L('⟨%s, %s, %s⟩'%p for p in pts))
    print()
gen('tetra',[[0,2,1],[0,1,3],[1,2,3],[2,0,3]],[(0,0,0),(2,0,0),(0,2,0),(0,0,2)],'A tetrahedron.')
gen('panel',[[0,1,2],[0,2,3]],[(0,0,3),(2,0,3),(2,2,3),(0,2,3)],'A square at height 3, cut in two triangles: an open surface.')
gen('hut',[[0,2,4],[2,1,4],[1,0,4],[0,1,3],[1,2,3],[2,0,3]],[(0,0,0),(3,0,0),(0,3,0),(1,1,3),(1,1,0)],'A closed pyramid whose base is three triangles around the point number 4.')
gen('ring',[[0,1,4,3],[1,2,5,4],[2,0,3,5]],[(0,0,0),(9,0,0),(0,9,0),(1,1,0),(4,1,0),(1,4,0)],'Three quadrangles around a triangular hole in a horizontal plane.')
gen('fold',[[0,1,2],[1,0,3]],[(0,0,0),(2,0,0),(1,2,0),(1,1,0)],'Two triangles on the same side of their common edge: the second is folded over the first.')
gen('ramp',[[0,1,2,3],[0,3,4]],[(0,0,0),(1,0,0),(2,0,0),(1,2,0),(0,0,5)],'A quadrangle that goes straight on at its second corner, and a triangle that stands on one of its edges.')
