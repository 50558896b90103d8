"""Writes lean/Verif/Gen/UprightPoly*.lean: the value of every cell of eval_linear
(_mooreriderlean2012.py) for the upright bicycle, as a polynomial.  Nothing here is trusted: Lean
checks the table against the statements (Lemmas/UprightPoly.lean)."""
import sys, os, ast, tempfile, collections
from fractions import Fraction as Fr
here = os.path.dirname(os.path.abspath(__file__))
out = sys.argv[1] if len(sys.argv) > 1 else os.path.join(here, '..', 'lean', 'Verif', 'Gen')
save = sys.argv
sys.argv = ['x', tempfile.mkdtemp()]
exec(open(os.path.join(here, 'gen_eval_linear.py')).read())
sys.argv = save
ATOMS = [949, 951, 945, 977, 979, 973, 981, 983, 905, 964, 1001]
ZERO = 'q1 q2 q3 q4 q6 q7 q8 q9 u4 u7 u9 T4 T6 T7 T9'.split()

primes = [k for k in range(2, 400) if all(k % j for j in range(2, k))]
VAR = {'s': 2, 'W': 3, 'iW': 5, 'rf': 7, 'irf': 11, 'z1001': 13, 'iz1001': 17, 'c': 19}
rest = [p for p in primes if p > 19]
for n in [x for x in INPUTS if x not in ZERO + ['rf', 'q5', 'lam', 'd1', 'd2']] + ['z%d' % a for a in ATOMS if a != 1001]:
    VAR[n] = rest.pop(0)

def reduce(m, k):
    for d in (221, 77, 15):
        while m % d == 0: m //= d
    if m % 4 == 0: return [(m // 4, k), (m // 4 * 361, -k)]
    return [(m, k)]
def clean(r): return {m: k for m, k in r.items() if k}
def padd(p, q, f=1):
    r = collections.defaultdict(Fr)
    for m, k in p.items(): r[m] += k
    for m, k in q.items(): r[m] += f * k
    return clean(r)
def pmul(p, q):
    r = collections.defaultdict(Fr)
    for m, j in p.items():
        for n, k in q.items():
            for x, y in reduce(m * n, j * k): r[x] += y
    return clean(r)
INV = {3: 5, 5: 3, 7: 11, 11: 7, 13: 17}
def pinv(p):
    (m, k), = p.items()
    r = 1
    for a, b in INV.items():
        while m % a == 0: m //= a; r *= b
    assert m == 1 and abs(k) == 1
    return {r: k}
def v(n): return {VAR[n]: Fr(1)}
def const(k): return {1: Fr(k)} if k else {}
T = {}
for i, x in enumerate(INPUTS):
    l = BASE + i
    if x in ZERO: T[l] = {}
    elif x == 'd1': T[l] = padd(padd(padd(pmul(v('W'), v('c')), pmul(v('rr'), v('s')), -1), pmul(v('rf'), v('s'))), v('d3'), -1)
    elif x == 'd2': T[l] = padd(padd(pmul(v('W'), v('s')), pmul(v('rr'), v('c'))), pmul(v('rf'), v('c')), -1)
    elif x in ('lam', 'q5'): T[l] = None
    else: T[l] = v(x)
def pe(e):
    if isinstance(e, (ast.Name, ast.Subscript)): return T[loc(e)]
    if isinstance(e, ast.Constant): return const(Fr(e.value))
    if isinstance(e, ast.UnaryOp): return padd({}, pe(e.operand), -1)
    if isinstance(e, ast.Call):
        if e.func.id == 'pow':
            a = pe(e.args[0]); k = Fr(e.args[1].value)
            if k.denominator == 1:
                r = const(1)
                for _ in range(int(k)): r = pmul(r, a)
                return r
            assert a in ({}, const(1)), a
            return a
        x = e.args[0]
        if isinstance(x, ast.Name) and x.id in ('q5', 'lam'): return v('c' if e.func.id == 'cos' else 's')
        assert pe(x) == {}
        return const(1) if e.func.id == 'cos' else {}
    a, b = pe(e.left), pe(e.right)
    if isinstance(e.op, ast.Mult): return pmul(a, b)
    if isinstance(e.op, ast.Div): return pmul(a, pinv(b))
    return padd(a, b, 1 if isinstance(e.op, ast.Add) else -1)
CLOSED = {}
for st in stmts:
    l = loc(st.targets[0])
    p = pe(st.value)
    if l in ATOMS: CLOSED[l] = p; p = v('z%d' % l)
    T[l] = p

def lit(k):
    assert k.denominator == 1
    k = int(k)
    return '.ofNat %d' % k if k >= 0 else '.negSucc %d' % (-k - 1)
def poly(p): return '[' + ', '.join('(%d, %s)' % (m, lit(p[m])) for m in sorted(p)) + ']'
files = []; cur = []; size = 0; names = 0
def flush():
    global cur, size
    if cur: files.append(cur)
    cur = []; size = 0
def build(ls, bit, depth):
    """A tree over the cells ls, from the bit'th bit on; returns an expression."""
    global names, size
    ls = [l for l in ls if T[l]]
    if not ls: return '.nil'
    if bit == 13:
        (l,) = ls
        return '.leaf ' + poly(T[l])
    a = build([l for l in ls if not l >> bit & 1], bit + 1, depth)
    b = build([l for l in ls if l >> bit & 1], bit + 1, depth)
    par = lambda e: e if ' ' not in e else '(' + e + ')'
    e = '.node %s %s' % (par(a), par(b))
    n = sum(len(T[l]) for l in ls)
    if bit in (4, 8) or len(e) > 4000:
        names += 1
        cur.append('def upr%d : Tr := %s\n' % (names, e)); size += len(e)
        if size > 120000: flush()
        return 'upr%d' % names
    return e
cells = sorted(T)
T2 = {l: (p if p is not None else {}) for l, p in T.items()}; T = T2
top = build(cells, 0, 0)
flush()
head = 'import Verif.Lemmas.Laurent\n%s\n/-!\n# Generated by tools/gen_upright_poly.py\n-/\n\nnamespace BP.EL\n\n'
mods = []
for k, ch in enumerate(files, 1):
    name = 'UprightPoly%d' % k
    imp = ''.join('import Verif.Gen.%s\n' % m for m in mods[-1:])
    open(os.path.join(out, name + '.lean'), 'w').write(head % imp + '\n'.join(ch) + '\nend BP.EL\n')
    mods.append(name)
body = '/-- The polynomials of the cells. -/\ndef uprightPoly : Tr := %s\n\n' % top
pairs = []
for n, p in VAR.items():
    if n in INPUTS: pairs.append((p, BASE + INPUTS.index(n)))
    elif n[0] == 'z' and n != 'z1001': pairs.append((p, int(n[1:])))
body += '/-- The variables: primes, and the cells they stand for. -/\ndef uprightVars : List (ℕ × ℕ) :=\n  [' + ', '.join('(%d, %d)' % x for x in pairs) + ']\n'
open(os.path.join(out, 'UprightPoly.lean'), 'w').write(head % ('import Verif.Gen.%s\n' % mods[-1]) + body + '\nend BP.EL\n')
print(mods, sum(len(p) for p in T.values()), {l: len(p) for l, p in CLOSED.items()}, names)
