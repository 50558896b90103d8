"""Writes lean/Verif/Gen/RoundingCert.lean: for each dictionary of Model/Shipped.lean the ranges in which the variables of
bicycle.py:105-165 are, whatever the rounding.  The kernel checks them (Props/Rounding.lean); they need not be trusted."""
import re
from fractions import Fraction as F
from math import floor, ceil
from pathlib import Path

root = Path(__file__).resolve().parent.parent
shipped = (root / 'lean/Verif/Model/Shipped.lean').read_text()
model = (root / 'lean/Verif/Model/Rounding.lean').read_text()

def dictionary(name):
    body = re.search(r'def %s : Dict ℚ :=\s*\[(.*?)\]' % name, shipped, re.S).group(1)
    return {k: F(v) for k, v in re.findall(r'\("(\w+)", (-?[0-9.]+)\)', body)}

class B:
    def __init__(s, lo, hi): s.lo, s.hi = lo, hi
    def widen(s, r): return B(s.lo - r, s.hi + r)
    def blur(s): return s.widen(max(-s.lo, s.hi) / 2**52 + F(1, 2**100))
    def __neg__(s): return B(-s.hi, -s.lo)
    def __add__(s, o): return B(s.lo + o.lo, s.hi + o.hi).blur()
    def __sub__(s, o): return B(s.lo - o.hi, s.hi - o.lo).blur()
    def raw(s, o):
        p = [s.lo*o.lo, s.lo*o.hi, s.hi*o.lo, s.hi*o.hi]
        return B(min(p), max(p))
    def __mul__(s, o): return s.raw(o).blur()
    def __truediv__(s, o):
        assert o.lo > 0
        return s.raw(B(1/o.hi, 1/o.lo)).blur()

def fact(n): return 1 if n == 0 else n*fact(n-1)
def trig(b, odd):
    mid, rad = (b.lo + b.hi)/2, (b.hi - b.lo)/2
    p = sum(F((-1)**i, fact(2*i+odd))*mid**(2*i+odd) for i in range(8))
    e = mid**16*17/F(334764638208000)
    return B(p - e, p + e).widen(rad).blur()
def cos(b): return trig(b, 0)
def sin(b): return trig(b, 1)
def sq(b): return b.raw(b).blur()

D = 10**24
def outward(b): return B(F(floor(b.lo*D) - 1, D), F(ceil(b.hi*D) + 1, D))

text = re.search(r'\n  \[(\("mT".*?)\]\n', model, re.S).group(1)
lines = []
for piece in re.split(r',\n   (?=\(")', text):
    m = re.match(r'\("(\w+)", (.*)\)$', piece, re.S)
    e = ' '.join(m.group(2).split())
    e = re.sub(r'\bp "(\w+)"', r'V["\1"]', e)
    e = re.sub(r'\bint (\d+)', r'B(F(\1), F(\1))', e)
    e = re.sub(r'\bsq ([SC])\b', r'sq(\1)', e)
    lines.append((m.group(1), e))

def dec(q):
    n = q * D
    assert n.denominator == 1
    n = n.numerator
    return '%s%d / %d' % ('-' if n < 0 else '', abs(n), D)

out = ['import Verif.Lemmas.Boxes', '', '/-!', '# Ranges of the variables of bicycle.py:105-165, written by tools/gen_rounding.py', '-/', '',
       'namespace BP', '']
for name in ['benchmarkBicycle', 'browserJason', 'browserJasonLegs']:
    d = dictionary(name)
    V = {k: B(q - abs(q)/2**53, q + abs(q)/2**53) for k, q in d.items()}
    row = []
    for x, e in lines:
        V['?'] = None
        env = dict(V=V, B=B, F=F, sq=sq, cos=cos, sin=sin)
        env['C'] = cos(V['lam']); env['S'] = sin(V['lam'])
        V[x] = outward(eval(e, env))
        row.append((x, V[x]))
    out.append('/-- Ranges for `%s` (bicycle.py:105-165). -/' % name)
    out.append('def %sRanges : Dict Box :=' % name)
    out.append('  [' + ',\n   '.join('("%s", ⟨%s,\n     %s⟩)' % (x, dec(b.lo), dec(b.hi)) for x, b in row) + ']')
    out.append('')
    print(name, max((float(b.hi - b.lo), x) for x, b in row))
out.append('end BP')
(root / 'lean/Verif/Gen/RoundingCert.lean').write_text('\n'.join(out) + '\n')
