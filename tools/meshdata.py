#!/usr/bin/env python3
"""Writes lean/Verif/Model/MeshData/*.lean from the mesh tables of /repo (src/vpx/mesh/*/*_mesh.rs).

A decimal constant becomes the nearest f32 (ties to even), computed with exact fractions.
"""
import glob, os, re
from fractions import Fraction

OUT = '/verif/lean/Verif/Model/MeshData'

def f32(text):
    neg = text.startswith('-')
    q = Fraction(text.lstrip('-'))
    if q == 0:
        return 0x80000000 if neg else 0
    e = 0
    while q >= Fraction(2) ** (e + 1): e += 1
    while q < Fraction(2) ** e: e -= 1
    e = max(e, -126)
    m = q / Fraction(2) ** (e - 23)
    n = m.numerator // m.denominator
    r = m - n
    if r > Fraction(1, 2) or (r == Fraction(1, 2) and n % 2 == 1): n += 1
    if n == 1 << 24: n, e = n >> 1, e + 1
    bits = n if n < 1 << 23 else ((e + 127) << 23) + (n - (1 << 23))
    return bits | (0x80000000 if neg else 0)

def camel(name):
    w = name.lower().split('_')
    return w[0] + ''.join(x.capitalize() for x in w[1:])

FIELDS = ['x', 'y', 'z', 'nx', 'ny', 'nz', 'tu', 'tv']
os.makedirs(OUT, exist_ok=True)
for d in sorted({os.path.dirname(f) for f in glob.glob('/repo/src/vpx/mesh/*/*_mesh.rs')}):
    mod = os.path.basename(d).capitalize()
    out = ['import Verif.Model.MeshPack', '/-', f'Generated by tools/meshdata.py from /repo/src/vpx/mesh/{os.path.basename(d)}/*_mesh.rs.', '-/',
           'namespace Vpin', '']
    for f in sorted(glob.glob(d + '/*_mesh.rs')):
        src = re.sub(r'//.*', lambda m: '', open(f).read())
        raw = open(f).read().split('\n')
        vs = ix = None
        for m in re.finditer(r'pub (?:static|const) (\w+): \[(\w+); (\w+)\] = \[(.*?)\];', src, re.S):
            name, ty, _, body = m.groups()
            first = next(i for i, l in enumerate(raw) if re.search(rf'\b{name}: \[', l)) + 1
            last = next(i for i, l in enumerate(raw[first - 1:]) if l.strip() == '];' or l.rstrip().endswith('];')) + first
            if ty == 'Vertex3dNoTex2':
                vs = []
                for b in re.findall(r'Vertex3dNoTex2\s*\{(.*?)\}', body, re.S):
                    kv = dict(re.findall(r'(\w+):\s*(-?[0-9.eE+-]+)', b))
                    assert sorted(kv) == sorted(FIELDS), (name, kv)
                    vs.append([f32(kv[k]) for k in FIELDS])
                vname, vlines = name, (first, last)
            else:
                ix = [int(x) for x in re.findall(r'\d+', body)]
                iname, ilines = name, (first, last)
        assert len(ix) % 3 == 0
        base = camel(os.path.basename(f)[:-len('_mesh.rs')])
        rel = f
        out += ['set_option maxRecDepth 100000 in', f'/-- the vertices of `{vname}`, {rel}:{vlines[0]}-{vlines[1]} -/', f'def {base}Vertices : List Nat := [']
        out += ['  0x' + ''.join('%08x' % w for w in v) + (',' if i < len(vs) - 1 else ']') for i, v in enumerate(vs)]
        out += ['', 'set_option maxRecDepth 100000 in', f'/-- the triangles of `{iname}`, {rel}:{ilines[0]}-{ilines[1]} -/', f'def {base}Tris : List Nat := [']
        ts = ['0x%04x%04x%04x' % tuple(ix[i:i + 3]) for i in range(0, len(ix), 3)]
        rows = [ts[i:i + 7] for i in range(0, len(ts), 7)]
        out += ['  ' + ', '.join(r) + (',' if i < len(rows) - 1 else ']') for i, r in enumerate(rows)]
        out += ['', f'/-- the table of {rel} -/', f'def {base}Table : MeshTable := unpackTable {base}Vertices {base}Tris', '']
    out += ['end Vpin', '']
    open(f'{OUT}/{mod}.lean', 'w').write('\n'.join(out))
    print(mod, len(out))
