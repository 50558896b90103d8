"""Writes lean/Verif/Gen/EvalLinear*.lean from the text of
/repo/bicycleparameters/_mooreriderlean2012.py (parsed, never run)."""
import ast, os, sys
SRC = '/repo/bicycleparameters/_mooreriderlean2012.py'
OUT = sys.argv[1] if len(sys.argv) > 1 else '/verif/lean/Verif/Gen'
CHUNK, NODES = 150, 6000          # statements / syntax nodes per list
f = [n for n in ast.parse(open(SRC).read()).body if isinstance(n, ast.FunctionDef)][0]
INPUTS = (['q%d' % i for i in range(1, 10)] + ['u4', 'u6', 'u7', 'u9', 'T4', 'T6', 'T7', 'T9']
          + 'c9 d1 d2 d3 d4 g ic11 ic22 ic31 ic33 id11 id22 ie11 ie22 ie31 ie33 if11 if22 ig11 ig22 ig31 ig33 k9 l1 l2 l3 l4 l5 l6 mc md me mf mg rf rr'.split() + ['lam'])
NAMES = list(INPUTS)
stmts = []
for st in f.body:
    if not isinstance(st, ast.Assign):
        assert isinstance(st, ast.Return); continue
    t = st.targets[0]
    if isinstance(t, ast.Name):
        if t.id in ('A', 'B', 'C', 'D', 'z'): continue
        if t.id in INPUTS:
            k = INPUTS.index(t.id)
            v = ast.unparse(st.value)
            want = ('q[%d]' % k if k < 9 else 'u[%d]' % (k-9) if k < 13 else 'r[%d]' % (k-13) if k < 17 else
                    'p[%d]' % (k-17) if k < 53 else 'pitch_from_roll_and_steer(q4, q7, rf, rr, d1, d2, d3)')
            assert v == want, (t.id, v, want)
            continue
        assert t.id not in NAMES
        NAMES.append(t.id)
    stmts.append(st)
BASE = 5031
MAT = {'A': (5200, 13, 13), 'B': (5400, 13, 4), 'C': (5500, 18, 13), 'D': (5800, 18, 4)}
assert len(NAMES) + BASE < 5200
def loc(t):
    if isinstance(t, ast.Name): return BASE + NAMES.index(t.id)
    if t.value.id == 'z':
        assert 0 <= t.slice.value < 5031
        return t.slice.value
    b, r, c = MAT[t.value.id]
    i, j = [e.value for e in t.slice.elts]
    assert 0 <= i < r and 0 <= j < c
    return b + c*i + j
def target(t):
    if isinstance(t, ast.Name): return str(loc(t)), 'l' + t.id
    return str(loc(t)), None
QUART = {0.25: 1, 0.5: 2, 1.5: 6}
HALF = {0.5: 1, 1.5: 3, 2.5: 5}
def expr(e, p=0):
    if isinstance(e, ast.Name): return e.id
    if isinstance(e, ast.Subscript):
        assert e.value.id == 'z'
        return 'z %d' % e.slice.value if p < 100 else '(z %d)' % e.slice.value
    if isinstance(e, ast.Constant):
        if isinstance(e.value, int): s = 'n %d' % e.value
        else: s = 'qt %d' % QUART[e.value]
        return s if p < 100 else '(%s)' % s
    if isinstance(e, ast.UnaryOp):
        assert isinstance(e.op, ast.USub)
        s = 'neg ' + expr(e.operand, 100); return s if p < 100 else '(%s)' % s
    if isinstance(e, ast.Call):
        if e.func.id == 'pow':
            k = e.args[1].value
            s = ('pow %s %d' % (expr(e.args[0], 100), k) if isinstance(k, int)
                 else 'hpow %s %d' % (expr(e.args[0], 100), HALF[k]))
        else:
            assert e.func.id in ('sin', 'cos')
            s = e.func.id + ' ' + expr(e.args[0], 100)
        return s if p < 100 else '(%s)' % s
    o, q = {ast.Add: ('⊹', 65), ast.Sub: ('⊝', 65), ast.Mult: ('⊛', 70), ast.Div: ('⊘', 70)}[type(e.op)]
    s = '%s %s %s' % (expr(e.left, q), o, expr(e.right, q + 1))
    return s if p <= q else '(%s)' % s
def size(e): return sum(1 for _ in ast.walk(e))
def wrap(s, ind):
    out, line = [], ''
    for w in s.split(' '):
        if line and len(line) + 1 + len(w) > 98:
            out.append(line); line = ind + w
        else: line = line + ' ' + w if line else w
    return '\n'.join(out + [line])
chunks, cur, n = [], [], 0
for st in stmts:
    s = size(st.value)
    if cur and (len(cur) >= CHUNK or n + s > NODES):
        chunks.append(cur); cur, n = [], 0
    cur.append(st); n += s
chunks.append(cur)
# definedness checkpoints
D = 0
for k in range(2, len(INPUTS)): D |= 1 << (BASE + k)   # q1, q2 are never read
cps = [D]
for c in chunks:
    for st in c: D |= 1 << loc(st.targets[0])
    cps.append(D)
# degree tables
def dg(M=0, L=0, T=0, m=0, r=0): return (M, L, T, m, r)
deg = {}
deg.update(q1=dg(L=1), q2=dg(L=1, m=1), q3=dg(m=1), q4=dg(m=1), q5=dg(), q6=dg(), q7=dg(m=1), q8=dg(), q9=dg(m=1))
deg.update(u4=dg(T=-1, m=1, r=1), u6=dg(T=-1, r=1), u7=dg(T=-1, m=1, r=1), u9=dg(T=-1, m=1, r=1))
for t, m in (('T4', 1), ('T6', 0), ('T7', 1), ('T9', 1)): deg[t] = dg(1, 2, -2, m)
deg['c9'] = dg(1, 2, -1, 0, 1); deg['k9'] = dg(1, 2, -2); deg['g'] = dg(L=1, T=-2); deg['lam'] = dg()
for x in 'd1 d2 d3 d4 l1 l2 l3 l4 l5 l6 rf rr'.split(): deg[x] = dg(L=1)
for x in 'mc md me mf mg'.split(): deg[x] = dg(1)
for b in 'cdefg':
    for ij in '11 22 31 33'.split(): deg['i' + b + ij] = dg(1, 2)
table = {BASE + INPUTS.index(x): deg[x] for x in INPUTS}
xs = [deg['q%d' % i] for i in range(1, 10)] + [deg[k] for k in ('u4', 'u6', 'u7', 'u9')]
us = [deg[k] for k in ('T4', 'T6', 'T7', 'T9')]
def mul(a, b, s=1): return (a[0]+s*b[0], a[1]+s*b[1], a[2]+s*b[2], (a[3]+b[3]) % 2, (a[4]+b[4]) % 2)
RATE = dg(T=-1, r=1)
ys = [mul(x, RATE) for x in xs]      # the derivatives of the states
# outputs of C, D: u1,u2,u3,u5,u8,q1p..q9p,u4p.. in the code's row order, see C rows 9-17
def ev(e):
    if isinstance(e, (ast.Name, ast.Subscript)): return table[loc(e)]
    if isinstance(e, ast.Constant): return dg()
    if isinstance(e, ast.UnaryOp): return ev(e.operand)
    if isinstance(e, ast.Call):
        a = ev(e.args[0])
        if e.func.id == 'pow':
            k = e.args[1].value
            if isinstance(k, int): return (a[0]*k, a[1]*k, a[2]*k, a[3]*k % 2, a[4]*k % 2)
            assert a[3] == a[4] == 0
            return (int(a[0]*k), int(a[1]*k), int(a[2]*k), 0, 0)
        assert a[:3] == (0, 0, 0)
        return dg() if e.func.id == 'cos' else a
    a, b = ev(e.left), ev(e.right)
    if isinstance(e.op, ast.Mult): return mul(a, b)
    if isinstance(e.op, ast.Div): return mul(a, b, -1)
    assert a == b; return a
CR = xs[:9] + ys[:9]
for st in stmts:
    t = st.targets[0]
    if isinstance(t, ast.Subscript) and t.value.id != 'z':
        i, j = [x.value for x in t.slice.elts]
        m = t.value.id
        want = mul((ys if m in 'AB' else CR)[i], (xs if m in 'AC' else us)[j], -1)
        if not (isinstance(st.value, ast.Constant) and st.value.value == 0):
            assert ev(st.value) == want, (m, i, j, ev(st.value), want)
        table[loc(t)] = want
    else:
        table[loc(t)] = ev(st.value)
def pack(k, enc):
    r = 0
    for l, d in table.items(): r |= enc(d[k]) << (8*l)
    return '0x%x' % r
# constants in the upright configuration
cst = {BASE + k: 0 for k in range(len(INPUTS))}
for x in 'q1 q2 q3 q4 q6 q7 q8 q9 u4 u7 u9 T4 T6 T7 T9'.split(): cst[BASE + INPUTS.index(x)] = 1
def cv(e):
    if isinstance(e, (ast.Name, ast.Subscript)): return cst[loc(e)]
    if isinstance(e, ast.Constant): return {0: 1, 1: 2}.get(e.value, 0)
    if isinstance(e, ast.UnaryOp): return 1 if cv(e.operand) == 1 else 0
    if isinstance(e, ast.Call):
        a = cv(e.args[0])
        if e.func.id == 'pow': return a
        return 0 if a != 1 else 1 if e.func.id == 'sin' else 2
    a, b = cv(e.left), cv(e.right)
    if isinstance(e.op, ast.Mult): return 1 if 1 in (a, b) else 2 if a == b == 2 else 0
    if isinstance(e.op, ast.Div): return 1 if a == 1 else a if b == 2 else 0
    if b == 1: return a
    if isinstance(e.op, ast.Add): return b if a == 1 else 0
    return 1 if a == b == 2 else 0
for st in stmts: cst[loc(st.targets[0])] = cv(st.value)
os.makedirs(OUT, exist_ok=True)
HEAD = """/-!
# The body of `eval_linear`, part %s

Generated by tools/gen_eval_linear.py from _mooreriderlean2012.py:%d-%d.  Do not edit.
-/

namespace BP.EL

open E

"""
PER = -(-len(chunks) // 8)
mods = []
for m in range(0, len(chunks), PER):
    group = chunks[m:m+PER]
    name = 'EvalLinear%d' % (m // PER + 1)
    mods.append(name)
    with open('%s/%s.lean' % (OUT, name), 'w') as o:
        o.write('import Verif.Model.EvalLinear\n\n')
        o.write(HEAD % (m // PER + 1, group[0][0].lineno, group[-1][-1].end_lineno))
        for k, c in enumerate(group):
            o.write('/-- _mooreriderlean2012.py:%d-%d -/\ndef part%d : List (ℕ × E) := [\n'
                    % (c[0].lineno, c[-1].end_lineno, m + k))
            lines = []
            for st in c:
                l = loc(st.targets[0])
                lines.append(wrap('  (%d, %s)' % (l, expr(st.value)), '    '))
            o.write(',\n'.join(lines) + ']\n\n')
        o.write('end BP.EL\n')
with open('%s/EvalLinear.lean' % OUT, 'w') as o:
    for m in mods: o.write('import Verif.Gen.%s\n' % m)
    o.write("""
/-!
# The body of `eval_linear`, put together, with the tables its checks use

Generated by tools/gen_eval_linear.py.  Do not edit.
-/

namespace BP.EL

/-- The statements of _mooreriderlean2012.py:%d-%d, in order. -/
def parts : List (List (ℕ × E)) := [
%s]

""" % (stmts[0].lineno, stmts[-1].end_lineno, wrap('  ' + ', '.join('part%d' % k for k in range(len(chunks))), '  ')))
    o.write('/-- The body of `eval_linear`. -/\ndef body : List (ℕ × E) := parts.flatten\n\n')
    o.write('/-- The cells that hold a value at the end, as bits, apart from those of `q1` and `q2`. -/\ndef assigned : ℕ := 0x%x\n\n' % cps[-1])
    o.write('/-- What is known of the cells in the upright configuration: 1 for zero, 2 for one, '
            '0 for nothing. -/\ndef uprightTable : ℕ := 0x%x\n\n' % sum(c << (8*l) for l, c in cst.items()))
    for k, nm, doc in ((0, 'mass', 'The exponent of the unit of mass of every cell, plus 64'),
                       (1, 'length', 'The exponent of the unit of length of every cell, plus 64'),
                       (2, 'time', 'The exponent of the unit of time of every cell, plus 64')):
        o.write('/-- %s, eight bits per cell. -/\ndef %sTable : ℕ := %s\n\n' % (doc, nm, pack(k, lambda d: d + 64)))
    for k, nm, doc in ((3, 'mirror', 'under reflection in the vertical plane'), (4, 'reversal', 'under reversal of time')):
        o.write('/-- 1 for cells that keep their sign %s, 2 for those that change it. -/\ndef %sTable : ℕ := %s\n\n' % (doc, nm, pack(k, lambda d: d + 1)))
    o.write('end BP.EL\n')
print(len(stmts), len(chunks), mods, NAMES[53:])
