"""Writes lean/Verif/Gen/Rolling.lean: statements of eval_linear (_mooreriderlean2012.py) that solve the rolling
conditions, as equations, and a table that gives the coefficients of these conditions as polynomials in sines and
cosines.  Nothing here is trusted: Lean checks all of it against the statements."""
import sys, os, ast, tempfile
from fractions import Fraction as Fr
here = os.path.dirname(os.path.abspath(__file__))
out = sys.argv[1] if len(sys.argv) > 1 else os.path.join(here, '..', 'lean', 'Verif', 'Gen')
save = sys.argv
sys.argv = ['x', tempfile.mkdtemp()]
exec(open(os.path.join(here, 'gen_eval_linear.py')).read())
sys.argv = save
DEF = {loc(s.targets[0]): s.value for s in stmts[:1015]}
idx = [loc(s.targets[0]) for s in stmts[:1015]]
def reads(e): return {loc(n) for n in ast.walk(e) if isinstance(n, ast.Subscript) or (isinstance(n, ast.Name) and n.id not in ('pow', 'sin', 'cos', 'z'))}
def term(e, p=0):
    """as a Lean real"""
    if isinstance(e, (ast.Name, ast.Subscript)): s, q = 'm %d' % loc(e), 95
    elif isinstance(e, ast.Constant):
        if isinstance(e.value, int): s, q = '((%d : ℕ) : ℝ)' % e.value, 100
        else: s, q = '((%d : ℕ) : ℝ) / 4' % QUART[e.value], 70
    elif isinstance(e, ast.UnaryOp): s, q = '-' + term(e.operand, 75), 75
    elif isinstance(e, ast.Call):
        if e.func.id == 'pow':
            k = e.args[1].value
            if isinstance(k, int): s, q = '%s ^ %d' % (term(e.args[0], 76), k), 75
            else: s, q = '√(%s) ^ %d' % (term(e.args[0]), HALF[k]), 75
        else: s, q = 'Real.%s (%s)' % (e.func.id, term(e.args[0])), 95
    else:
        op, q = {ast.Add: ('+', 65), ast.Sub: ('-', 65), ast.Mult: ('*', 70), ast.Div: ('/', 70)}[type(e.op)]
        s = '%s %s %s' % (term(e.left, q), op, term(e.right, q + 1))
    return s if q >= p else '(%s)' % s
EQ = [l for l in idx if 478 <= l <= 551 or l in (5085, 5086, 5087, 5088, 5089, 5090, 5091, 5092, 5093, 5094, 5095, 5096, 5097)
      or 410 <= l <= 455 or l in (475, 476, 477, 35, 36, 37, 38, 39, 40)]
s_ = '/-- Equations between cells. -/\nstructure RollEqs (m : ℕ → ℝ) : Prop where\n'
for l in EQ: s_ += '  e%d : m %d = %s\n' % (l, l, term(DEF[l]))
s_ += '\n'
pr = 'theorem rollEqs {m : ℕ → ℝ} (heq : ∀ s ∈ body, m s.1 = s.2.val real m) : RollEqs m where\n'
for l in EQ: pr += '  e%d := heq (%d, %s) (rate_mem (by decide +kernel))\n' % (l, l, expr(DEF[l]))
# the table
TRIG = [(1, 2), (3, 4), (5, 6), (7, 8), (9, 10), (11, 12)]
SMALL = {1: 2, 2: 3, 3: 17, 4: 19, 5: 23, 6: 29, 7: 31, 8: 37, 9: 41, 10: 43, 11: 47, 12: 53}
SIN = {s: c for c, s in TRIG}
def padd(p, q, f=1):
    r = dict(p)
    for m, k in q.items():
        x = r.get(m, 0) + f * k
        if x: r[m] = x
        else: r.pop(m, None)
    return r
def red(m, k):
    for s, c in SIN.items():
        if m.count(s) >= 2:
            t = list(m); t.remove(s); t.remove(s)
            return padd(red(tuple(t), k), red(tuple(sorted(t + [c, c])), -k))
    return {m: k}
def pmul(p, q):
    r = {}
    for m, j in p.items():
        for n, k in q.items(): r = padd(r, red(tuple(sorted(m + n)), j * k))
    return r
ATOMS = {x for t in TRIG for x in t} | {39, 40}
need = set()
def rec(l):
    if l in need: return
    need.add(l)
    if l in ATOMS or l not in DEF: return
    for k in reads(DEF[l]): rec(k)
for l in list(range(456, 475)) + [224, 225, 227, 228, 28, 30, 32, 33, 34]: rec(l)
N = {}
def pv(e):
    if isinstance(e, (ast.Name, ast.Subscript)): return val(loc(e))
    if isinstance(e, ast.Constant): return {(): Fr(e.value)} if e.value else {}
    if isinstance(e, ast.UnaryOp): return padd({}, pv(e.operand), -1)
    if isinstance(e, ast.Call):
        r = {(): Fr(1)}; b = pv(e.args[0])
        for _ in range(e.args[1].value): r = pmul(r, b)
        return r
    a, b = pv(e.left), pv(e.right)
    if isinstance(e.op, ast.Add): return padd(a, b)
    if isinstance(e.op, ast.Sub): return padd(a, b, -1)
    assert isinstance(e.op, ast.Mult)
    return pmul(a, b)
def val(l):
    if l not in N: N[l] = {(l,): Fr(1)} if l in ATOMS or l not in DEF else pv(DEF[l])
    return N[l]
for l in need: val(l)
print('cells', len(need), 'terms', max(len(p) for p in N.values()))
primes = [n for n in range(251, 62500) if all(n % d for d in range(2, 250) if d * d <= n)]
prime = dict(SMALL)
for l in sorted(need):
    if (l in ATOMS or l not in DEF) and l not in prime: prime[l] = primes.pop(0)
def mono(m):
    r = 1
    for x in m: r *= prime[x]
    return r
def lit(k): return '.ofNat %d' % k if k >= 0 else '.negSucc %d' % (-k - 1)
def poly(p):
    q = {mono(m): int(x) for m, x in p.items()}
    return '[' + ', '.join('(%d, %s)' % (m, lit(q[m])) for m in sorted(q)) + '] 0'
ent = {l: '.trans ' + poly(N[l]) for l in need}
for l in need:
    if l in prime and l not in (1, 2): ent[l] = '.atom %d' % prime[l]
def build(ls, bit):
    if not ls: return '.nil'
    if bit == 13: return '.leaf (%s)' % ent[ls[0]]
    return '.node (%s) (%s)' % (build([l for l in ls if not l >> bit & 1], bit + 1), build([l for l in ls if l >> bit & 1], bit + 1))
parts = []
def chunk(ls, bit):
    if bit < 5 and len(ls) > 8:
        return '.node (%s) (%s)' % (chunk([l for l in ls if not l >> bit & 1], bit + 1), chunk([l for l in ls if l >> bit & 1], bit + 1))
    parts.append(build(ls, bit))
    return 'rollTable_%d' % len(parts)
top = chunk(sorted(ent), 0)
for i, e in enumerate(parts, 1): s_ += 'def rollTable_%d : JTree := %s\n\n' % (i, e)
s_ += '/-- Cells as polynomials in sines and cosines. -/\ndef rollTable : JTree := %s\n\n' % top
s_ += '/-- The primes of cells. -/\ndef rollPrimes : List (ℕ × ℕ) := [%s]\n\n' % ', '.join('(%d, %d)' % (prime[l], l) for l in sorted(prime) if l in need and l not in (1, 2))
open(os.path.join(out, 'Rolling.lean'), 'w').write('import Verif.Lemmas.JacobianChecks\n\n/-!\n# Generated by tools/gen_rolling.py\n-/\n\nnamespace BP.EL\n\n/-- Statements. -/\ntheorem rate_mem {s : ℕ × E} (h : (rateBody.any fun t => decide (t = s)) = true) : s ∈ body := by\n  obtain ⟨t, ht, e⟩ := List.any_eq_true.mp h\n  rw [decide_eq_true_eq] at e\n  exact e ▸ List.mem_of_mem_take ht\n\n' + s_ + '\nend BP.EL\n')
open(os.path.join(out, 'RollingEqs.lean'), 'w').write('import Verif.Gen.Rolling\n\n/-!\n# Generated by tools/gen_rolling.py\n-/\n\nnamespace BP.EL\n\nopen E\n\n' + pr + '\nend BP.EL\n')
print(len(s_), len(pr), len(EQ))
