"""Writes lean/Verif/Gen/Invariance.lean: how the cells that eval_linear (_mooreriderlean2012.py)
computes up to `u9p` depend on the heading q3 and on the angles q6, q8 of the wheels.  Nothing here is
trusted: Lean checks the tables against the statements (Lemmas/Invariance.lean)."""
import sys, os, ast, random, tempfile
from fractions import Fraction as Fr
here = os.path.dirname(os.path.abspath(__file__))
out = sys.argv[1] if len(sys.argv) > 1 else os.path.join(here, '..', 'lean', 'Verif', 'Gen')
save = sys.argv
sys.argv = ['x', tempfile.mkdtemp()]
exec(open(os.path.join(here, 'gen_eval_linear.py')).read())
sys.argv = save
idx = [loc(s.targets[0]) for s in stmts][:1015]
DEF = {loc(s.targets[0]): s.value for s in stmts[:1015]}
# the cells that do not change but have to be written out (found by trying)
OUT = {'q6': [31, 32, 48, 62, 65, 268, 269, 278, 286, 290, 786, 795], 'q8': [],
       'q3': [16, 18, 19, 20, 31, 32, 41, 42, 51, 54, 55, 58, 59, 61, 64, 118, 222, 226, 228, 458, 482, 487, 909, 910, 914]}
CH = {'q6': [7, 8, 54, 60, 55, 63, 58, 61, 59, 64, 785, 794, 283, 281, 781, 783, 284, 285, 287, 787, 799, 288, 289, 291, 796, 797, 560, 561, 784, 793],
 'q8': [11, 12, 89, 94, 88, 90, 97, 92, 95, 91, 96, 93, 833, 843, 836, 845, 834, 844, 323, 321, 830, 832, 326, 325, 327, 324, 328, 837, 850, 332, 330, 331, 329, 333, 847, 848, 835, 846],
 'q3': [1, 2, 515, 125, 123, 124, 234, 239, 462, 513, 469, 502, 519, 219, 457, 498, 495, 504, 484, 490, 533, 121, 218, 456, 122, 120, 233, 238, 461, 468, 489, 538, 539, 540, 5085, 5086, 507, 508, 505, 509, 542, 485, 534, 543, 522, 520, 523, 541, 5087, 5088, 531, 530, 486, 488, 483, 491, 183, 188, 193, 907, 182, 187, 192, 906, 916, 958, 912, 957, 900, 915, 972, 911, 899, 971, 913, 917, 554, 555, 556, 557, 558, 559, 569, 570, 571, 572, 573, 574, 575, 576, 577, 578, 621, 622, 887, 946, 665, 888, 947, 666]}
ROT = {'q3': (1, 2), 'q6': (7, 8), 'q8': (11, 12)}
# cosine and sine cells with their primes; the turned angle always has the primes 2, 3
TRIG = [(1, 2), (3, 4), (5, 6), (7, 8), (9, 10), (11, 12), (17, 15), (13, 14)]
SMALL = [(11, 13), (17, 19), (23, 29), (31, 37), (41, 43), (47, 53), (59, 61), (67, 71)]
def reads(e): return {loc(n) for n in ast.walk(e) if isinstance(n, ast.Subscript) or (isinstance(n, ast.Name) and n.id not in ('pow', 'sin', 'cos', 'z'))}
def padd(p, q, f=1):
    r = dict(p)
    for m, k in q.items():
        x = r.get(m, 0) + f * k
        if x: r[m] = x
        else: r.pop(m, None)
    return r
SIN = {s: c for c, s in TRIG}
def red(m, k):
    """a term with s^2 replaced by 1 - c^2"""
    for s, c in SIN.items():
        if m.count(s) >= 2:
            t = list(m); t.remove(s); t.remove(s)
            return padd(red(tuple(t), k), red(tuple(sorted(t + [c, c])), -k))
    return {m: k}
def pmul(p, q):
    r = {}
    for m, j in p.items():
        for n, k in q.items(): r = padd(r, red(tuple(sorted(m + n)), j * k))
    return r
GH, GDEF = {}, {}
def gen(nm):
    c, s = ROT[nm]
    GH.clear(); GDEF.clear()
    trans = set(OUT[nm]) | set(CH[nm])
    EX = {}
    N = {c: {(c,): Fr(1)}, s: {(s,): Fr(1)}}
    def pv(e):
        if isinstance(e, (ast.Name, ast.Subscript)): return val(loc(e))
        if isinstance(e, ast.Constant): return {(): Fr(e.value)} if e.value else {}
        if isinstance(e, ast.UnaryOp): return padd({}, pv(e.operand), -1)
        if isinstance(e, ast.Call):
            assert e.func.id == 'pow'
            r = {(): Fr(1)}; b = pv(e.args[0])
            for _ in range(e.args[1].value): r = pmul(r, b)
            return r
        a = pv(e.left)
        if isinstance(e.op, ast.Div):
            assert loc(e.right) == 494
            return pmul(a, {(-494,): Fr(1)})
        b = pv(e.right)
        if isinstance(e.op, ast.Add): return padd(a, b)
        if isinstance(e.op, ast.Sub): return padd(a, b, -1)
        return pmul(a, b)
    def ghost(q):
        """a variable for a polynomial without the angle"""
        if not q: return {}
        sg = 1 if q[min(q)] > 0 else -1
        key = tuple(sorted((m, sg * k) for m, k in q.items()))
        if key not in GH:
            g = 10000 + len(GH); GH[key] = g; GDEF[g] = dict(key)
        return {(GH[key],): Fr(sg)}
    def val(l):
        if l not in N:
            N[l] = pv(DEF[l]) if l in trans else {(l,): Fr(1)}
            EX[l] = N[l]
            if nm == 'q3' and len(N[l]) > 8 and any(c in m or s in m for m in N[l]):
                C = {tuple(x for x in m if x != c): k for m, k in N[l].items() if m.count(c) == 1 and s not in m}
                S = {tuple(x for x in m if x != s): k for m, k in N[l].items() if m.count(s) == 1 and c not in m}
                assert len(C) + len(S) == len(N[l])
                N[l] = padd({tuple(sorted(m + (c,))): k for m, k in ghost(C).items()},
                            {tuple(sorted(m + (s,))): k for m, k in ghost(S).items()})
        return N[l]
    for l in idx:
        if l in trans: val(l)
    turned = {l for l in trans if any(c in m or s in m for m in N[l])}
    used = set(); mixed = 0; worst = 0
    for l in idx:
        if l in (c, s): continue
        e = DEF[l]
        if l in trans: p = EX[l]; used |= reads(e); worst = max(worst, len(p))
        elif reads(e) & turned:
            used |= reads(e); p = pv(e); mixed += 1; worst = max(worst, len(p))
            assert not any(c in m or s in m for m in p), (nm, l)
    print(nm, 'mixed', mixed, 'used', len(used), 'terms', worst)
    return trans, N, used
trees = ''
primes = [n for n in range(251, 62500) if all(n % d for d in range(2, 250) if d * d <= n)]
def lit(k): return '.ofNat %d' % k if k >= 0 else '.negSucc %d' % (-k - 1)
s_ = ''
for nm in ['q3', 'q6', 'q8']:
    trans, N, used = gen(nm)
    c, s = ROT[nm]
    prime = {c: 2, s: 3, 494: 5, -494: 7}
    for (a, b), (pa, pb) in zip(TRIG, SMALL):
        if a != c: prime[a], prime[b] = pa, pb
    free = list(primes)
    atoms = sorted((used - trans) | {494})
    for l in atoms:
        if l not in prime: prime[l] = free.pop(0)
    for g in sorted(GDEF): prime[g] = free.pop(0)
    def mono(m):
        r = 1
        for x in m: r *= prime[x]
        return r
    def poly(p):
        k = 0
        while any((x * 4 ** k).denominator != 1 for x in p.values()): k += 1
        q = {mono(m): int(x * 4 ** k) for m, x in p.items()}
        return '[' + ', '.join('(%d, %s)' % (m, lit(q[m])) for m in sorted(q)) + '] %d' % k
    ent = {l: '.atom %d' % prime[l] for l in atoms}
    for l in trans: ent[l] = '.trans ' + poly(N[l])
    for a, b in TRIG:
        if a != c: ent[a] = '.atom %d' % prime[a]; ent[b] = '.atom %d' % prime[b]
    def build(ls, bit):
        if not ls: return '.nil'
        if bit == 13: return '.leaf (%s)' % ent[ls[0]]
        a = build([l for l in ls if not l >> bit & 1], bit + 1); b = build([l for l in ls if l >> bit & 1], bit + 1)
        return '.node (%s) (%s)' % (a, b)
    Q = nm.upper()
    # split the tree into definitions
    parts = []
    def chunk(ls, bit):
        e = build(ls, bit)
        if bit < 5 and len(ls) > 8:
            a = chunk([l for l in ls if not l >> bit & 1], bit + 1); b = chunk([l for l in ls if l >> bit & 1], bit + 1)
            return '.node (%s) (%s)' % (a, b)
        parts.append(e)
        return 'turn%s_%d' % (Q, len(parts))
    top = chunk(sorted(ent), 0)
    for i, e in enumerate(parts, 1): s_ += 'def turn%s_%d : JTree := %s\n\n' % (Q, i, e)
    s_ += '/-- The cells as polynomials, `2` and `3` being the cosine and the sine of %s. -/\ndef turn%s : JTree := %s\n\n' % (nm, Q, top)
    s_ += '/-- The primes of the other cells. -/\ndef turn%sPrimes : List (ℕ × ℕ) := [%s]\n\n' % (Q, ', '.join('(%d, %d)' % (prime[l], l) for l in sorted(prime) if 0 < l < 10000 and l not in (c, s) and l in ent))
    s_ += '/-- Variables for polynomials. -/\ndef turn%sGhosts : List (ℕ × Poly × ℕ) := [%s]\n\n' % (Q, ', '.join(
        '(%d, %s)' % (prime[g], poly(GDEF[g]).replace('] ', '], ')) for g in sorted(GDEF)))
    if nm == 'q3':
        X, Y = ({k: v for k, v in ((tuple(x for x in m if x != a), v) for m, v in N[5086].items() if a in m)} for a in (1, 2))
        Y = padd({}, Y, -1)
        for name, q in (('X', X), ('Y', Y)):
            s_ += '/-- The polynomial of `q%sp` at heading 0. -/\ndef ahead%s : Poly × ℕ := (%s)\n\n' % ('1' if name == 'X' else '2', name, poly(q).replace('] ', '], '))
        C, S = {(1,): Fr(1)}, {(2,): Fr(1)}
        assert N[5086] == padd(pmul(C, X), pmul(S, Y), -1), 'rot'
        assert N[5088] == padd(pmul(S, X), pmul(C, Y)), 'rot'
open(os.path.join(out, 'Invariance.lean'), 'w').write('import Verif.Lemmas.JTree\n\n/-!\n# Generated by tools/gen_invariance.py\n-/\n\nnamespace BP.EL\n\n' + s_ + 'end BP.EL\n')
print(len(s_))
