"""Writes lean/Verif/Gen/Dynamics.lean and DynamicsEqs.lean: the coefficients of the equations of motion in eval_linear
(_mooreriderlean2012.py) as polynomials in sines, cosines, speeds and parameters, the velocities and accelerations of
the bodies as such polynomials, and statements as equations.  Nothing here is trusted: Lean checks all of it."""
import sys, os, tempfile
here = os.path.dirname(os.path.abspath(__file__))
out = sys.argv[1] if len(sys.argv) > 1 else os.path.join(here, '..', 'lean', 'Verif', 'Gen')
save = sys.argv
src = open(os.path.join(here, 'gen_rolling.py')).read()
src = src[:src.index('ATOMS = {x for t')].replace('os.path.dirname(os.path.abspath(__file__))', 'here')
src = src.replace("out = sys.argv[1]", "out_ = sys.argv[1]")
exec(src)
TRIG = [(1, 2), (3, 4), (5, 6), (7, 8), (9, 10), (11, 12), (13, 14), (17, 15)]
SMALL.update({13: 59, 14: 61, 17: 67, 15: 71})
SIN = {s: c for c, s in TRIG}
def pmul(p, q):
    r = {}
    for m, j in p.items():
        for n, k in q.items():
            for a, b in red(tuple(sorted(m + n)), j * k).items():
                x = r.get(a, 0) + b
                if x: r[a] = x
                else: r.pop(a, None)
    return r
import re
names = {m.group(1): int(m.group(2)) for m in re.finditer(r'def (\w+) : E := \.z (\d+)', open(os.path.join(here, '..', 'lean', 'Verif', 'Model', 'EvalLinear.lean')).read())}
U = [5085, 5087, 5089, names['u4'], 5092, names['u6'], names['u7'], 5096, names['u9']]
ACC = list(range(6001, 6010)); OTH = list(range(6011, 6020))
ZERO = list(range(450, 456)) + [634, 639, 644, 651, 656, 661]
ATOMS = {x for t in TRIG for x in t} | {39, 40, 582, 584} | set(range(538, 552)) | set(ZERO) | set(U) | set(ACC) | set(OTH)
ROWS = {4: {4: 880, 3: 881, 5: 882, 6: 883, 7: 884, 8: 885, 9: 886, 1: 887, 2: 888, 'b': 889},
  6: {4: 890, 5: 891, 3: 892, 6: 893, 'b': 894},
  7: {5: 895, 4: 896, 7: 897, 3: 898, 1: -899, 2: 900, 'b': 901},
  9: {3: 902, 5: 903, 4: 904, 9: 905, 1: 906, 2: 907, 'b': 908},
  1: {1: 909, 2: 910, 5: 911, 3: 912, 'b': 913, 4: 887, 7: -899, 9: 906},
  2: {1: 910, 2: 914, 5: 915, 3: 916, 'b': 917, 4: 888, 7: 900, 9: 907},
  3: {1: 912, 2: 916, 4: 918, 3: 919, 5: 920, 6: 921, 7: 922, 8: 923, 9: 924, 'b': 925},
  5: {1: 911, 2: 915, 4: 926, 3: 927, 5: 928, 6: 929, 7: 930, 8: 931, 9: 932, 'b': 933},
  8: {5: 934, 4: 935, 3: 936, 8: 937, 'b': 938}}
PARAM = ['rr', 'd1', 'd2', 'd3', 'd4', 'l1', 'l2', 'l3', 'l4', 'l5', 'l6', 'mc', 'md', 'me', 'mf', 'mg', 'ic11', 'ic22', 'ic33', 'ic31',
  'id11', 'id22', 'ie11', 'ie22', 'ie33', 'ie31', 'if11', 'if22', 'ig11', 'ig22', 'ig33', 'ig31', 'g', 'T4', 'T6', 'T7', 'T9', 'k9', 'c9', 'q9', 'rf']
FLAT = [553, 568, 620, 628, 664, 579, 580, 268, 308, 296, 300, 305, 310, 269, 33, 34, 28, 32, 23, 24, 25, 27, 29, 31]
need = set(ATOMS) | {names[x] for x in PARAM}
seen = set()
def rec(l):
    if l in seen: return
    seen.add(l); need.add(l)
    if l in ATOMS or l not in DEF: return
    for k in reads(DEF[l]): rec(k)
for d in ROWS.values():
    for c in d.values(): rec(abs(c))
for c in [753, 754, 755, 756, 407] + FLAT + [5086, 5088, 5090, 5091, 5093, 5094, 5095, 5097, 5098]: rec(c)
N = {}
def pv(e):
    if isinstance(e, (ast.Name, ast.Subscript)): return val(loc(e))
    if isinstance(e, ast.Constant): return {(): Fr(e.value)} if e.value else {}
    if isinstance(e, ast.UnaryOp): return padd({}, pv(e.operand), -1)
    if isinstance(e, ast.Call):
        r = {(): Fr(1)}; b = pv(e.args[0])
        for _ in range(e.args[1].value): r = pmul(r, b)
        return r
    a, b = pv(e.left), pv(e.right)
    if isinstance(e.op, ast.Add): return padd(a, b)
    if isinstance(e.op, ast.Sub): return padd(a, b, -1)
    assert isinstance(e.op, ast.Mult), ast.unparse(e)
    return pmul(a, b)
def val(l):
    if l not in N: N[l] = {(l,): Fr(1)} if l in ATOMS or l not in DEF else pv(DEF[l])
    return N[l]
for l in need: val(l)
print('cells', len(need), 'terms', max(len(p) for p in N.values()), sum(len(p) for p in N.values()))
primes = [n for n in range(251, 62500) if all(n % d for d in range(2, 250) if d * d <= n)]
prime = dict(SMALL)
for l in sorted(need):
    if (l in ATOMS or l not in DEF) and l not in prime: prime[l] = primes.pop(0)
def mono(m):
    r = 1
    for x in m: r *= prime[x]
    return r
def lit(k): return '.ofNat %d' % k if k >= 0 else '.negSucc %d' % (-k - 1)
def poly(p):
    k = 0 if all(x.denominator == 1 for x in p.values()) else 1
    q = {mono(m): x * 4 ** k for m, x in p.items()}
    assert all(x.denominator == 1 for x in q.values())
    return '[' + ', '.join('(%d, %s)' % (m, lit(int(q[m]))) for m in sorted(q)) + ']', k
ent = {}
for l in need:
    ent[l] = '.trans %s %d' % poly(N[l])
    if l in prime and l not in (1, 2): ent[l] = '.atom %d' % prime[l]
def build(ls, bit):
    if not ls: return '.nil'
    if bit == 13: return '.leaf (%s)' % ent[ls[0]]
    return '.node (%s) (%s)' % (build([l for l in ls if not l >> bit & 1], bit + 1), build([l for l in ls if l >> bit & 1], bit + 1))
parts = []
def chunk(ls, bit):
    if bit < 7 and len(ls) > 8:
        return '.node (%s) (%s)' % (chunk([l for l in ls if not l >> bit & 1], bit + 1), chunk([l for l in ls if l >> bit & 1], bit + 1))
    parts.append(build(ls, bit))
    return 'dynTable_%d' % len(parts)
top = chunk(sorted(ent), 0)
s_ = ''
for i, e in enumerate(parts, 1): s_ += 'def dynTable_%d : JTree := %s\n\n' % (i, e)
s_ += '/-- Cells as polynomials in sines and cosines. -/\ndef dynTable : JTree := %s\n\n' % top
s_ += '/-- The primes of cells. -/\ndef dynPrimes : List (ℕ × ℕ) := [%s]\n\n' % ', '.join('(%d, %d)' % (prime[l], l) for l in sorted(prime) if l in need and l not in (1, 2))
# frames
class P:
    def __init__(s, d): s.d = d
    def __add__(a, b): return P(padd(a.d, b.d))
    def __sub__(a, b): return P(padd(a.d, b.d, -1))
    def __mul__(a, b): return P(pmul(a.d, b.d))
    def __neg__(a): return P(padd({}, a.d, -1))
def at(l): return P({(l,): Fr(1)})
def cell(n): return at(names[n])
Z_ = P({}); ONE = P({(): Fr(1)}); z3 = (Z_,) * 3
def cross(a, b): return (a[1] * b[2] - a[2] * b[1], a[2] * b[0] - a[0] * b[2], a[0] * b[1] - a[1] * b[0])
def add(a, b): return tuple(x + y for x, y in zip(a, b))
def dot(a, b): return a[0] * b[0] + a[1] * b[1] + a[2] * b[2]
def tX(c, s, v): return (v[0], c * v[1] + s * v[2], c * v[2] - s * v[1])
def tY(c, s, v): return (c * v[0] - s * v[2], v[1], s * v[0] + c * v[2])
def tZ(c, s, v): return (c * v[0] + s * v[1], c * v[1] - s * v[0], v[2])
AX = {tX: 0, tY: 1, tZ: 2}
def along(T, k): return tuple(k if j == AX[T] else Z_ for j in range(3))
def joint(f, d, T, c, s, u, a):
    v, w, vd, wd, dn = f
    v2 = T(c, s, add(v, cross(w, d))); w1 = T(c, s, w); n = along(T, u)
    return (v2, add(w1, n), add(T(c, s, add(vd, cross(wd, d))), cross(v2, n)), add(add(T(c, s, wd), along(T, a)), cross(w1, n)), T(c, s, dn))
def chain(q, a):
    f = {'N': ((q[0], q[1], Z_), z3, (a[0], a[1], Z_), z3, (Z_, Z_, ONE))}
    f['B'] = joint(f['N'], z3, tZ, at(1), at(2), q[2], a[2])
    f['A'] = joint(f['B'], z3, tX, at(3), at(4), q[3], a[3])
    f['C'] = joint(f['A'], (Z_, Z_, -cell('rr')), tY, at(5), at(6), q[4], a[4])
    f['D'] = joint(f['C'], z3, tY, at(7), at(8), q[5], a[5])
    f['E'] = joint(f['C'], (cell('d1'), Z_, Z_), tZ, at(9), at(10), q[6], a[6])
    f['F'] = joint(f['E'], (cell('d3'), Z_, cell('d2')), tY, at(11), at(12), q[7], a[7])
    f['H'] = joint(f['C'], (-(cell('d4') * at(14)), Z_, cell('d4') * at(13)), tY, at(13), -at(14), Z_, Z_)
    f['G'] = joint(f['H'], z3, tX, at(17), at(15), q[8], a[8])
    return f
def pq(p): return '(%s, %d)' % poly(p.d)
def vec(v): return '⟨' + ', '.join(pq(x) for x in v) + '⟩'
real = chain([at(x) for x in U], [at(x) for x in ACC])
virt = chain([at(x) for x in OTH], [Z_] * 9)
for k in 'BACDEFHG':
    s_ += '/-- A frame of the bicycle, as it moves. -/\ndef dyn%s : Fr PolyQ :=\n  ⟨%s⟩\n\n' % (k, ',\n    '.join(vec(v) for v in real[k]))
    f = virt[k]
    s_ += '/-- The same frame in another motion; without accelerations. -/\ndef vir%s : Fr PolyQ :=\n  ⟨%s⟩\n\n' % (k, ',\n    '.join(vec(v) for v in (f[0], f[1], z3, z3, f[4])))
# gravity
BODY = [('C', 'mc', ('l1', 'l2')), ('D', 'md', None), ('E', 'me', (('d3', 'l3'), ('d2', 'l4'))), ('F', 'mf', None), ('G', 'mg', ('l5', 'l6'))]
def off(o):
    if o is None: return z3
    a, b = [cell(x) if isinstance(x, str) else cell(x[0]) + cell(x[1]) for x in o]
    return (a, Z_, b)
gp = Z_
for k, m, o in BODY: gp = gp + cell('g') * (cell(m) * dot(virt[k][4], add(virt[k][0], cross(virt[k][1], off(o)))))
G = {}
for mm, k in gp.d.items():
    w = [x for x in mm if x in OTH]; assert len(w) == 1
    t = list(mm); t.remove(w[0]); G.setdefault(w[0] - 6010, {})[tuple(t)] = k
print('gravity', {k: len(p) for k, p in G.items()})
for k in sorted(G): s_ += '/-- The weights as a force on a coordinate. -/\ndef dynWeight%d : PolyQ := (%s, %d)\n\n' % ((k,) + poly(G[k]))
open(os.path.join(out, 'Dynamics.lean'), 'w').write('import Verif.Lemmas.RigidAlgebra\n\n/-!\n# Generated by tools/gen_dynamics.py\n-/\n\nnamespace BP.EL\n\n' + s_ + '\nend BP.EL\n')
# equations
def flatE(p):
    r = None
    for m, k in sorted(p.items(), key=lambda t: (t[1] < 0, t[0])):
        fs = ['z %d' % x for x in m]
        c = abs(k)
        if c != 1: fs.insert(0, 'n %d' % c if c.denominator == 1 else 'qt %d' % int(c * 4))
        t = ' ⊛ '.join(fs) if fs else 'n 1'
        r = (('neg (%s)' % t if len(fs) > 1 else 'neg (%s)' % t) if k < 0 else t) if r is None else '%s %s %s' % (r, '⊝' if k < 0 else '⊹', t)
    return r or 'n 0'
def flatT(p):
    r = None
    for m, k in sorted(p.items(), key=lambda t: (t[1] < 0, t[0])):
        fs = ['m %d' % x for x in m]
        c = abs(k)
        if c != 1: fs.insert(0, '((%d : ℕ) : ℝ)' % c if c.denominator == 1 else '((%d : ℕ) : ℝ) / 4' % int(c * 4))
        t = ' * '.join(fs) if fs else '((1 : ℕ) : ℝ)'
        r = ('-(%s)' % t if k < 0 else t) if r is None else '%s %s %s' % (r, '-' if k < 0 else '+', t)
    return r or '((0 : ℕ) : ℝ)'
code = []
for r in sorted(ROWS):
    t = ['%s ⊛ z %d' % ('z %d' % c if c > 0 else 'neg (z %d)' % -c, 6000 + j) for j, c in ROWS[r].items() if j != 'b'] + ['z %d' % ROWS[r]['b']]
    code.append('z %d ⊛ (%s)' % (6010 + r, ' ⊹ '.join(t)))
e_ = '/-- The equations of motion, before the rolling conditions are used. -/\ndef dynRow : E :=\n  %s\n\n' % ' ⊹\n    '.join(code)
codeT = []
for r in sorted(ROWS):
    t = ['%s * m %d' % ('m %d' % c if c > 0 else '-m %d' % -c, 6000 + j) for j, c in ROWS[r].items() if j != 'b'] + ['m %d' % ROWS[r]['b']]
    codeT.append('m %d * (%s)' % (6010 + r, ' + '.join(t)))
e_ += 'theorem dynRow_val (m : ℕ → ℝ) : dynRow.val real m =\n    %s := rfl\n\n' % ' +\n    '.join(codeT)
e_ += '/-- Cells, and what they contain. -/\ndef dynRows : List (ℕ × E) :=\n  [%s]\n\n' % ',\n   '.join('(%d, %s)' % (l, flatE(val(l))) for l in FLAT)
e_ += '/-- The same in numbers. -/\nstructure DynVals (m : ℕ → ℝ) : Prop where\n'
for l in FLAT: e_ += '  v%d : m %d = %s\n' % (l, l, flatT(val(l)))
EQ = [l for l in idx if 578 < l < 585 and l not in (579, 580, 583) or 630 <= l <= 661 and l not in (645,) or 939 <= l <= 1033 or 665 <= l <= 669 or l in (5099, 5100, 5101, 5102)]
EQ = [l for l in EQ if l not in (583,)]
e_ += '\n/-- Equations between cells. -/\nstructure DynEqs (m : ℕ → ℝ) : Prop where\n'
for l in EQ: e_ += '  e%d : m %d = %s\n' % (l, l, term(DEF[l]))
e_ += '\ntheorem dynEqs {m : ℕ → ℝ} (heq : ∀ s ∈ body, m s.1 = s.2.val real m) : DynEqs m where\n'
for l in EQ: e_ += '  e%d := heq (%d, %s) (rate_mem (by decide +kernel))\n' % (l, l, expr(DEF[l]))
open(os.path.join(out, 'DynamicsEqs.lean'), 'w').write('import Verif.Gen.RollingEqs\nimport Verif.Gen.Dynamics\n\n/-!\n# Generated by tools/gen_dynamics.py\n-/\n\nnamespace BP.EL\n\nopen E\n\n' + e_ + '\nend BP.EL\n')
print(len(s_), len(e_), len(EQ))
