"""Writes lean/Verif/Model/QuadratureData.lean from the grids shipped in /repo/e3x/so3/_*_grids.npz.

Every grid is a union of orbits of the symmetry group of the cube.  One representative and one weight per orbit is
written, as numerators over 2^70.  The script then expands the orbits again and prints how far the stored numbers are
from the expanded table (Delley: they are equal; Lebedev: the stored coordinates carry rounding errors).
"""
import os, struct, sys, zipfile
from fractions import Fraction
from itertools import permutations, product

ROOT = os.path.dirname(os.path.dirname(os.path.abspath(__file__)))
OUT = sys.argv[1] if len(sys.argv) > 1 else os.path.join(ROOT, 'lean/Verif/Model')
K = 70


def npz(path):
    out = {}
    z = zipfile.ZipFile(path)
    for n in z.namelist():
        b = z.read(n)
        assert b[:6] == b'\x93NUMPY'
        if b[6] == 1:
            hl, off = struct.unpack('<H', b[8:10])[0], 10
        else:
            hl, off = struct.unpack('<I', b[8:12])[0], 12
        h = eval(b[off:off + hl].decode())
        assert not h['fortran_order']
        d = b[off + hl:]
        f = {'<f8': 'd', '<i8': 'q', '<f4': 'f', '<i4': 'i', '|u1': 'B', '<i2': 'h'}[h['descr']]
        m = 1
        for s in h['shape']:
            m *= s
        out[n[:-4]] = list(struct.unpack('<%d%s' % (m, f), d[:m * struct.calcsize(f)]))
    return out


def num(v):
    f = Fraction(v) * 2 ** K
    assert f.denominator == 1
    return f.numerator


def mean(vs):
    return round(Fraction(sum(vs), len(vs)))


def orbits(r, w):
    clusters = []
    for j in range(len(w)):
        a = sorted((abs(v) for v in r[3 * j:3 * j + 3]), reverse=True)
        for c in clusters:
            if all(abs(u - v) <= 1e-12 for u, v in zip(a, c[0])) and abs(w[j] - c[1]) <= 1e-14:
                c[2].append(j)
                break
        else:
            clusters.append([a, w[j], [j]])
    out = []
    for a, _, js in clusters:
        rows = [sorted((abs(num(v)) for v in r[3 * j:3 * j + 3]), reverse=True) for j in js]
        x, y, z = ([row[k] for row in rows] for k in range(3))
        if abs(a[0] - a[1]) < 1e-12 and abs(a[1] - a[2]) < 1e-12:
            x = y = z = x + y + z
        elif abs(a[0] - a[1]) < 1e-12:
            x = y = x + y
        elif abs(a[1] - a[2]) < 1e-12:
            y = z = y + z
        x, y, z = mean(x), mean(y), mean(z)
        wm = mean([num(w[j]) for j in js])
        assert len(expand((x, y, z))) == len(js), (a, len(js))
        out.append((x, y, z, wm, js))
    return out


def expand(t):
    return {tuple(s * v for s, v in zip(sg, p)) for p in permutations(t) for sg in product((1, -1), repeat=3)}


def grid(kind):
    t = npz('/repo/e3x/so3/_%s_grids.npz' % kind)
    for i, (p, n) in enumerate(zip(t['precision'], t['num'])):
        r, w = t['r%d' % i], t['w%d' % i]
        assert len(w) == n and len(r) == 3 * n
        yield p, n, r, w


def main():
    for kind in ('lebedev', 'delley'):
        lines = ['import Verif.Model.QuadratureGrid', '', '/-!',
                 '# The orbits of the grids in so3/_%s_grids.npz' % kind, '',
                 'Written by `tools/quadrature_tables.py`.', '-/', '', 'namespace E3x', '']
        worst = worstw = Fraction(0)
        names = []
        for i, (p, n, r, w) in enumerate(grid(kind)):
            os_ = orbits(r, w)
            assert sum(len(o[4]) for o in os_) == n
            for x, y, z, wm, js in os_:
                pts = expand((x, y, z))
                seen = set()
                for j in js:
                    q = tuple(num(v) for v in r[3 * j:3 * j + 3])
                    best = min(pts, key=lambda s: max(abs(s[k] - q[k]) for k in range(3)))
                    assert best not in seen
                    seen.add(best)
                    worst = max(worst, max(abs(best[k] - q[k]) for k in range(3)))
                    worstw = max(worstw, Fraction(abs(num(w[j]) - wm), abs(wm)))
            part = lambda sel: '[' + ',\n    '.join('⟨%d, %d, %d, %d⟩' % (x, y, z, abs(wm)) for x, y, z, wm, _ in sel) + ']'
            name = '%sRule%d' % (kind, p)
            names.append(name)
            lines += ['/-- `r%d`, `w%d` of so3/_%s_grids.npz: %d points, precision %d. -/' % (i, i, kind, n, p),
                      'def %s : QuadratureRule where' % name,
                      '  pos := ' + part([o for o in os_ if o[3] >= 0]),
                      '  neg := ' + part([o for o in os_ if o[3] < 0]), '']
        lines += ['/-- The grids of so3/_%s_grids.npz, in the order of the file. -/' % kind,
                  'def %sRules : List QuadratureRule :=' % kind, '  [' + ',\n    '.join(names) + ']', '', 'end E3x', '']
        with open(os.path.join(OUT, 'Quadrature%s.lean' % kind.capitalize()), 'w') as f:
            f.write('\n'.join(lines))
        print(kind, 'largest difference of a coordinate %.3g' % (worst / 2 ** K), 'and of a weight (relative) %.3g' % worstw)


main()
