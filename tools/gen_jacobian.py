"""Writes lean/Verif/Gen/Jacobian*.lean: for every cell that eval_linear
(_mooreriderlean2012.py) computes before `u9p`, its partial derivatives by the state variables and
the torques, expressed by later cells.  Nothing here is trusted: Lean checks the tables against the
statements (Lemmas/Jacobian.lean)."""
import sys, os, ast, random, tempfile
from fractions import Fraction as Fr
from collections import defaultdict
here = os.path.dirname(os.path.abspath(__file__))
out = sys.argv[1] if len(sys.argv) > 1 else os.path.join(here, '..', 'lean', 'Verif', 'Gen')
save = sys.argv
sys.argv = ['x', tempfile.mkdtemp()]
exec(open(os.path.join(here, 'gen_eval_linear.py')).read())
sys.argv = save
random.seed(1)
idx = [loc(s.targets[0]) for s in stmts]
DEF = {loc(s.targets[0]): s.value for s in stmts}
assert len(DEF) == len(idx)
rates = ['q%dp' % i for i in range(1, 10)] + ['u4p', 'u6p', 'u7p', 'u9p']
DIR = ['q%d' % i for i in range(1, 10)] + ['u4', 'u6', 'u7', 'u9', 'T4', 'T6', 'T7', 'T9']
end = idx.index(BASE + NAMES.index('u9p')) + 1
# the cells before u9p that the later statements write out (found by trying)
OUT = [163, 2054, 2057, 2059, 2086, 2130, 4119, 4175, 4176, 3, 4, 5, 7, 6, 8, 54, 60, 10, 9, 27, 1, 2, 29, 28,
       11, 12, 88, 239, 66, 69, 92, 58, 48, 91, 122, 120, 238, 70, 93, 15, 17, 116, 182, 108, 290, 117, 672, 678,
       688, 692, 694, 700, 734]
OP = set(idx[:end]) - set(OUT)
# ---- values modulo a prime, every other cell shifted, to find candidates
P = (1 << 127) - 1
def inv(x): return pow(x, P - 2, P)
class NonSquare(Exception): pass
def sq(x):
    r = pow(x, (P + 1) // 4, P)
    if r * r % P != x % P: raise NonSquare
    return r
def lin(*ts):
    r = {}
    for c, d in ts:
        for k, v in d.items(): r[k] = (r.get(k, 0) + c * v) % P
    return {k: v for k, v in r.items() if v}
def numbers():
    V, D, trig = {}, {}, {}
    for i, x in enumerate(INPUTS):
        V[BASE + i] = random.randrange(P)
        D[BASE + i] = {DIR.index(x): 1} if x in DIR else {}
    def ev(e):
        if isinstance(e, (ast.Name, ast.Subscript)): return V[loc(e)], D[loc(e)]
        if isinstance(e, ast.Constant):
            f = Fr(e.value); return f.numerator * inv(f.denominator) % P, {}
        if isinstance(e, ast.UnaryOp):
            v, d = ev(e.operand); return -v % P, lin((-1, d))
        if isinstance(e, ast.Call):
            if e.func.id == 'pow':
                v, d = ev(e.args[0]); k = e.args[1].value
                if isinstance(k, int): return pow(v, k, P), lin((k * pow(v, k - 1, P), d))
                n = HALF[k]; s = sq(v)
                return pow(s, n, P), lin((n * inv(2) * pow(s, n, P) * inv(v), d))
            l = loc(e.args[0]); c, s = trig.setdefault(l, (random.randrange(P), random.randrange(P)))
            return (s, lin((c, D[l]))) if e.func.id == 'sin' else (c, lin((-s, D[l])))
        (a, da), (b, db) = ev(e.left), ev(e.right)
        if isinstance(e.op, ast.Add): return (a + b) % P, lin((1, da), (1, db))
        if isinstance(e.op, ast.Sub): return (a - b) % P, lin((1, da), (-1, db))
        if isinstance(e.op, ast.Mult): return a * b % P, lin((b, da), (a, db))
        ib = inv(b); return a * ib % P, lin((ib, da), (-a * ib * ib, db))
    for st in stmts:
        l = loc(st.targets[0])
        V[l], D[l] = ev(st.value)
        if l in OP: V[l] = (V[l] + random.randrange(P)) % P
    return V, D
while True:
    try: V, D = numbers(); break
    except NonSquare: pass
# ---- polynomials: a monomial is a sorted tuple of cells, -c the inverse of c
def padd(p, q, f=1):
    r = dict(p)
    for m, k in q.items():
        x = r.get(m, 0) + f * k
        if x: r[m] = x
        else: r.pop(m, None)
    return r
def mmul(a, b):
    t = list(a)
    for x in b:
        if -x in t: t.remove(-x)
        else: t.append(x)
    return tuple(sorted(t))
def pmul(p, q):
    r = {}
    for m, j in p.items():
        for n, k in q.items():
            mm = mmul(m, n); x = r.get(mm, 0) + j * k
            if x: r[mm] = x
            else: del r[mm]
    return r
def pc(c): return {(): Fr(c)} if c else {}
def atom(l): return {(l,): Fr(1)}
def scale(c, p): return {m: c * x for m, x in p.items()}
TRIG = {}
for k, e in DEF.items():
    if isinstance(e, ast.Call) and e.func.id in ('sin', 'cos'): TRIG[(e.func.id, loc(e.args[0]))] = k
TRANS = set(OUT) - set(TRIG.values()) | {35}
N, ALIAS, BAD, DP = {35: {(36, 36): Fr(1)}}, {}, set(), {}
def pinv(p):
    (m, k), = p.items(); assert k == 1 and set(m) <= {36, 494, 1001}, m
    return {tuple(sorted(-x for x in m)): Fr(1)}
def pv(e):
    if isinstance(e, (ast.Name, ast.Subscript)): return val(loc(e))
    if isinstance(e, ast.Constant): return pc(Fr(e.value))
    if isinstance(e, ast.UnaryOp): return padd({}, pv(e.operand), -1)
    if isinstance(e, ast.Call):
        if e.func.id == 'pow':
            k = e.args[1].value
            if isinstance(k, int):
                r = pc(1); b = pv(e.args[0])
                for _ in range(k): r = pmul(r, b)
                return r
            assert loc(e.args[0]) == 35
            return {(36,) * HALF[k]: Fr(1)}
        return atom(TRIG[(e.func.id, loc(e.args[0]))])
    a = pv(e.left)
    b = pv(e.right)
    if isinstance(e.op, ast.Div): return pmul(a, pinv(b))
    if isinstance(e.op, ast.Add): return padd(a, b)
    if isinstance(e.op, ast.Sub): return padd(a, b, -1)
    return pmul(a, b)
def dp(l):
    if l not in DP: DP[l] = pv(DEF[l])
    return DP[l]
def val(l):
    if l in N: return N[l]
    N[l] = atom(l)
    if l in ALIAS:
        r = ALIAS[l]; p, q = dp(l), dp(r); m = next(iter(q)); c = p.get(m, 0) / q[m]
        if p == scale(c, q): N[l] = {(r,): c}
        else: BAD.add(l)
    elif l in TRANS: N[l] = dp(l)
    return N[l]
def chain(e, T):
    if isinstance(e, (ast.Name, ast.Subscript)): return T.get(loc(e), {})
    if isinstance(e, ast.Constant): return {}
    if isinstance(e, ast.UnaryOp): return padd({}, chain(e.operand, T), -1)
    if isinstance(e, ast.Call):
        d = chain(e.args[0], T)
        if not d: return {}
        if e.func.id == 'pow':
            k = e.args[1].value
            if isinstance(k, int):
                r = pc(k); b = pv(e.args[0])
                for _ in range(k - 1): r = pmul(r, b)
                return pmul(r, d)
            h = HALF[k]
            return pmul(scale(Fr(h, 2), {(36,) * (h - 2) if h >= 2 else (-36,): Fr(1)}), d)
        l = loc(e.args[0])
        if e.func.id == 'sin': return pmul(atom(TRIG[('cos', l)]), d)
        return padd({}, pmul(atom(TRIG[('sin', l)]), d), -1)
    da, db = chain(e.left, T), chain(e.right, T)
    if isinstance(e.op, ast.Add): return padd(da, db)
    if isinstance(e.op, ast.Sub): return padd(da, db, -1)
    if isinstance(e.op, ast.Mult): return padd(pmul(da, pv(e.right)), pmul(pv(e.left), db))
    ib = pinv(pv(e.right))
    return padd(pmul(da, ib), pmul(pmul(pv(e.left), pmul(ib, ib)), db), -1)
SC = [Fr(1), Fr(-1), Fr(2), Fr(-2), Fr(1, 2), Fr(-1, 2), Fr(4), Fr(-4), Fr(1, 4), Fr(-1, 4)]
def times(v, c): return v * c.numerator * inv(c.denominator) % P
cls = {}
def norm(v): return min(times(v, c) for c in SC)
for l in [BASE + i for i in range(len(INPUTS))] + list(TRIG.values()) + sorted(TRANS): cls.setdefault(norm(V[l]), (0, l))
for l in idx[end:]:
    if l >= 5031 or V[l] == 0: continue
    c = cls.setdefault(norm(V[l]), (1, l))
    if c[1] == l: continue
    if c[0]: ALIAS[l] = c[1]
    else: TRANS.add(l)
for l in range(5200, 5200 + 169): TRANS.add(l)
for l in range(5400, 5400 + 52): TRANS.add(l)
for l in idx:
    if l < 5500: val(l)
byval = defaultdict(list)
for l in idx[end:]:
    if l < 5031 and l not in TRANS and (l not in ALIAS or l in BAD):
        for c in SC: byval[times(V[l], c)].append((c, l))
TJ, STORE = [], set()
for j in range(17):
    T, E_ = {BASE + INPUTS.index(DIR[j]): pc(1)}, {}
    for k in idx[:end]:
        C = chain(DEF[k], T)
        if not C: continue
        for c, l in byval.get(D[k].get(j, 0), []):
            if scale(c, dp(l)) == C:
                T[k] = {(l,): c}; E_[k] = (l, c); STORE.add(l); break
        else: T[k] = C
    for i, r in enumerate(rates):
        cell = 5200 + 13 * i + j if j < 13 else 5400 + 4 * i + j - 13
        assert val(cell) == T.get(BASE + NAMES.index(r), {}), (i, j)
    TJ.append((T, E_))
STORE |= {ALIAS[l] for l in ALIAS if l not in BAD}
# ---- which cells are variables
used, todo = set(), []
for T, E_ in TJ:
    for p in T.values(): todo.append(p)
need = set(STORE) | {l for l in range(5200, 5369)} | {l for l in range(5400, 5452)}
seen = set()
def reads(e): return {loc(n) for n in ast.walk(e) if isinstance(n, ast.Subscript) or (isinstance(n, ast.Name) and n.id not in ('pow', 'sin', 'cos', 'z'))}
work = list(need) + idx[:end]
while work:
    l = work.pop()
    if l in seen: continue
    seen.add(l)
    if l in DEF and (l in STORE or (l in TRANS and l != 35) or (l in ALIAS and l not in BAD) or l in idx[:end]): work += reads(DEF[l])
    if l in ALIAS and l not in BAD: work.append(ALIAS[l])
cells = sorted(seen | {33, 34, 35, 36} | {BASE + i for i in range(len(INPUTS))})
# primes
special = {36: 2, 494: 5, 1001: 11}
primes = [n for n in range(251, 62500) if all(n % d for d in range(2, 250) if d * d <= n)]
prime = {}
freq = defaultdict(int)
for p in list(DP.values()):
    for m in p:
        for x in m: freq[abs(x)] += 1
atoms = [l for l in cells if not (l in TRANS or (l in ALIAS and l not in BAD))]
for l in sorted(atoms, key=lambda l: -freq[l]): prime[l] = special[l] if l in special else primes.pop(0)
invp = {-36: 3, -494: 7, -1001: 13}
def mono(m):
    r = 1
    for x in m: r *= invp[x] if x < 0 else prime[x]
    return r
def quart(p):
    k = 0
    while any((x * 4 ** k).denominator != 1 for x in p.values()): k += 1
    return {mono(m): int(x * 4 ** k) for m, x in p.items()}, k
def lit(k): return '.ofNat %d' % k if k >= 0 else '.negSucc %d' % (-k - 1)
def par(e): return e if ' ' not in e else '(' + e + ')'
def poly(p):
    q, k = quart(p)
    return '[' + ', '.join('(%d, %s)' % (m, lit(q[m])) for m in sorted(q)) + '] %d' % k
def coef(c):
    k = 0
    while (c * 4 ** k).denominator != 1: k += 1
    return '(%s) %d' % (lit(int(c * 4 ** k)), k)
VT = {}
for l in cells:
    if l in TRANS: VT[l] = '.trans ' + poly(N[l])
    elif l in ALIAS and l not in BAD:
        (m, c), = N[l].items(); VT[l] = '.mult %d %d %s' % (prime[m[0]], m[0], coef(c))
    elif l in STORE: VT[l] = '.adef %d %s' % (prime[l], poly(dp(l)))
    else: VT[l] = '.atom %d' % prime[l]
files = []; cur = []; size = 0; names = 0
def flush():
    global cur, size
    if cur: files.append(cur)
    cur = []; size = 0
def build(ls, ent, bit):
    global names, size
    if not ls: return '.nil'
    if bit == 13:
        (l,) = ls
        return '.leaf ' + par(ent[l])
    a = build([l for l in ls if not l >> bit & 1], ent, bit + 1)
    b = build([l for l in ls if l >> bit & 1], ent, bit + 1)
    e = '.node %s %s' % (par(a), par(b))
    if bit > 0 and len(e) > 3000:
        names += 1
        cur.append('def jac%d : JTree := %s\n' % (names, e)); size += len(e)
        if size > 110000: flush()
        return 'jac%d' % names
    return e
top = build(cells, VT, 0)
tops = []
for T, E_ in TJ:
    ent = {}
    for l, p in T.items():
        if l in E_: ent[l] = '.mult %d %d %s' % (prime[E_[l][0]], E_[l][0], coef(E_[l][1]))
        else: ent[l] = '.trans ' + poly(p)
    tops.append(build(sorted(ent), ent, 0))
flush()
head = 'import Verif.Lemmas.JTree\n%s\n/-!\n# Generated by tools/gen_jacobian.py\n-/\n\nnamespace BP.EL\n\n'
mods = []
for k, ch in enumerate(files, 1):
    name = 'Jacobian%d' % k
    imp = ''.join('import Verif.Gen.%s\n' % m for m in mods[-1:])
    open(os.path.join(out, name + '.lean'), 'w').write(head % imp + '\n'.join(ch) + '\nend BP.EL\n')
    mods.append(name)
s = '/-- The values of the cells. -/\ndef jacValues : JTree := %s\n\n' % top
for j, t in enumerate(tops): s += '/-- The partial derivatives by %s. -/\ndef jacDir%d : JTree := %s\n\n' % (DIR[j], j, t)
tab = 0
for l, p in prime.items(): tab |= l << (16 * p)
s += '/-- The cells the primes stand for, 16 bits each. -/\ndef jacCells : ℕ := 0x%x\n' % tab
open(os.path.join(out, 'Jacobian.lean'), 'w').write(head % ('import Verif.Gen.%s\n' % mods[-1]) + s + '\nend BP.EL\n')
print(mods, len(cells), 'atoms', len(prime), 'largest', max(prime.values()), 'stored', len(STORE), 'bad', BAD, 'alias', len(ALIAS), 'end', end)
