#!/usr/bin/env python3
"""Writes the derivatives in k2, at k2 = k1, of the coefficients of Verif/Proofs/Gamma2Form.lean.
Usage: gamma2iso.py > Verif/Proofs/Gamma2IsoCoef.lean"""
import re, os, textwrap
from fractions import Fraction as F
from math import lcm

HERE = os.path.dirname(os.path.abspath(__file__))
V = ['k1', 'k2', 'k3', 'q']


class P(dict):
    """Laurent polynomials."""
    def __add__(a, b):
        r = P(a)
        for m, c in lift(b).items():
            r[m] = r.get(m, 0) + c
            if not r[m]:
                del r[m]
        return r
    __radd__ = __add__

    def __neg__(a):
        return P({m: -c for m, c in a.items()})

    def __sub__(a, b):
        return a + -lift(b)

    def __rsub__(a, b):
        return lift(b) - a

    def __mul__(a, b):
        r = P()
        for m, c in a.items():
            for n, d in lift(b).items():
                r = r + P({tuple(x + y for x, y in zip(m, n)): c * d})
        return r
    __rmul__ = __mul__

    def __truediv__(a, b):
        (m, c), = lift(b).items()
        return a * P({tuple(-x for x in m): 1 / F(c)})


def lift(x):
    return x if isinstance(x, P) else P({(0,) * 4: F(x)})


def var(i):
    return lambda n: P({tuple(n if j == i else 0 for j in range(4)): F(1)})


def text(p):
    """A polynomial over a monomial, written with k, k3 and q."""
    lo = [-min([0] + [m[i] for m in p]) for i in range(3)]
    D = lcm(*[c.denominator for c in p.values()])
    out = []
    for m, c in sorted(p.items(), key=lambda t: t[0][2]):
        c *= D
        f = [str(abs(int(c)))] if abs(c) != 1 else []
        f += ['%s^%d' % (v, e + l) for v, e, l in zip(['k', 'k3', 'q'], m, lo) if e + l]
        out.append((' - ' if c < 0 else ' + ') + ('*'.join(f) or '1'))
    s = ''.join(out)
    s = s[3:] if s.startswith(' + ') else '-' + s[3:]
    den = [str(D)] + ['%s^%d' % (v, l) for v, l in zip(['k', 'k3', 'q'], lo) if l]
    return '(%s)/(%s)' % (s, '*'.join(den))


def poly(p):
    """A polynomial in k, k3 and q."""
    s = ''
    for m, c in sorted(p.items(), key=lambda t: t[0][2]):
        f = [str(abs(int(c)))] if abs(c) != 1 else []
        f += ['%s^%d' % (v, e) for v, e in zip(['k', 'k3', 'q'], m) if e]
        s += (' - ' if c < 0 else ' + ') + ('*'.join(f) or '1')
    return (s[3:] if s.startswith(' + ') else '-' + s[3:]) if s else '0'


def split(e):
    """Numerator and denominator of the expression, as polynomials."""
    d = 0
    for i, ch in enumerate(e):
        d += ch == '('
        d -= ch == ')'
        if ch == '/' and d == 0:
            env = {v: var(i) for i, v in enumerate(V)}
            return eval(e[:i], env), lift(eval(e[i + 1:], env))


src = open(HERE + '/../lean/Verif/Proofs/Gamma2Form.lean').read()
print('''import Verif.Proofs.Gamma2Form

/-!
# The coefficients of the exact second-order kernels near `k1 = k2`

Written by `tools/gamma2iso.py`: the derivative in `k2` at `k2 = k1 = k` of each coefficient of `Verif.Proofs.Gamma2Form`.
-/

set_option linter.unusedVariables false

namespace Verif

noncomputable section

/-- A polynomial by Horner's rule. -/
def hor : List ℝ → ℝ → ℝ
  | [], _ => 0
  | c :: l, y => c + y * hor l y

/-- Its derivative. -/
def horD : List ℝ → ℝ → ℝ
  | [], _ => 0
  | _ :: l, y => hor l y + y * horD l y

theorem hor_deriv (l : List ℝ) (y : ℝ) : HasDerivAt (hor l) (horD l y) y := by
  induction l with
  | nil => exact hasDerivAt_const _ _
  | cons c l ih =>
    have h := ((hasDerivAt_id' y).fun_mul ih).const_add c
    rw [one_mul] at h
    exact h

theorem laurent_deriv (l : List ℝ) (s n : ℕ) (D k : ℝ) (hk : k ≠ 0) :
    HasDerivAt (fun x => hor l (x ^ 2) * x ^ s / (D * x ^ n))
      (((horD l (k ^ 2) * (2 * k) * k ^ s + hor l (k ^ 2) * (s * k ^ (s - 1))) * k - n * (hor l (k ^ 2) * k ^ s)) / (D * k ^ (n + 1))) k := by
  have h2 : HasDerivAt (fun x : ℝ => x ^ 2) (2 * k) k := by simpa using hasDerivAt_pow 2 k
  have hl : HasDerivAt (fun x => hor l (x ^ 2)) (horD l (k ^ 2) * (2 * k)) k := (hor_deriv l (k ^ 2)).comp k h2
  have hs := hl.fun_mul (hasDerivAt_pow s k)
  have hn := hs.fun_div (hasDerivAt_pow n k) (pow_ne_zero n hk)
  have hd := hn.div_const D
  refine (hd.congr_deriv ?_).congr_of_eventuallyEq (Filter.Eventually.of_forall fun x => ?_)
  · rcases eq_or_ne D 0 with rfl | hD
    · simp
    cases n with
    | zero => simp; field_simp
    | succ n => simp only [Nat.add_sub_cancel]; field_simp; ring
  · simp only; rw [div_div, mul_comm D]
''')
for t in 'dt':
    for c in ['C0', 'CL1', 'CL2', 'CL3', 'CW1', 'CW2', 'CW3']:
        body = re.search(r'def g2%s%s \(k1 k2 k3 q : ℕ → ℝ\) : ℝ :=\n(.*?)\n\n' % (t, c), src, re.S).group(1)
        e = re.sub(r'\b(k1|k2|k3|q) (\d+)', r'\1(\2)', re.sub(r'\s+', ' ', body)).strip()
        p = eval(e, {v: var(i) for i, v in enumerate(V)})
        d = P()
        for m, x in p.items():
            d = d + P({(m[0] + m[1] - 1, m[2], m[3]): x * m[1]})
        n = 'g2%s%s' % (t, c)
        w = lambda s: '\n'.join(textwrap.wrap(s, 140, initial_indent='  ', subsequent_indent='    ', break_long_words=False, break_on_hyphens=False))
        print('/-- Derivative of `%s` in `k2` at `k2 = k1`. -/\ndef %sD (k k3 q : ℝ) : ℝ :=\n%s\n' % (n, n, w(text(d))))
        # C = hor l (k2^2) * k2^s / (D * k2^n)
        num, den = split(e)
        s0 = min(m[1] for m in num)
        (dm, dc), = den.items()
        top = max(m[1] for m in num)
        l = []
        for j in range(s0, top + 1, 2):
            l.append(poly({(m[0], m[2], m[3]): x for m, x in num.items() if m[1] == j}))
        assert all((m[1] - s0) % 2 == 0 for m in num)
        D = '*'.join([str(int(dc))] + ['%s^%d' % (v, x) for v, x in zip(['k', 'k3', 'q'], (dm[0], dm[2], dm[3])) if x])
        print(('set_option maxHeartbeats 1000000 in\n' if c == 'C0' else '') + '''theorem %s_deriv (k k3 q : ℝ) (hk : 0 < k) (h3 : 0 < k3) (hq : 0 < q) :
    HasDerivAt (fun x => %s (pw k) (pw x) (pw k3) (pw q)) (%sD k k3 q) k := by
  refine ((laurent_deriv
%s
    %d %d (%s) k hk.ne').congr_deriv ?_).congr_of_eventuallyEq (Filter.Eventually.of_forall fun x => ?_)
  · simp only [hor, horD, %sD]
    rw [div_eq_div_iff (by positivity) (by positivity)]
    push_cast
    ring
  · simp only [%s, hor, pw]
    congr 1 <;> ring
''' % (n, n, n, w('  [' + ', '.join(l) + ']'), s0, dm[1], D, n, n))

# the pieces of the kernels for nearly isosceles triangles
iso = open(HERE + '/../lean/Verif/Model/Gamma2Iso.lean').read()


def terms(e):
    """The summands of a sum."""
    d, out, cur = 0, [], ''
    for i, ch in enumerate(e):
        d += ch == '('
        d -= ch == ')'
        if d == 0 and ch in '+-' and e[i - 1] == ' ' and cur.strip():
            out.append(cur.strip())
            cur = ''
        cur += ch
    return out + [cur.strip()]


def closing(e, i):
    d = 0
    for j in range(i, len(e)):
        d += e[j] == '('
        d -= e[j] == ')'
        if d == 0:
            return j


for t in 'dt':
    body = re.search(r'def g2%sIsoE \(k1 eps k3 q : ℕ → ℝ\) : ℝ :=\n(.*?)\n\n' % t, iso, re.S).group(1)
    e = re.sub(r'\s+', ' ', body).strip()
    assert e.startswith('π*(') and e.endswith(')/(6.20928e6*q 5)')
    T = terms(e[3:closing(e, 2)])
    assert len(T) == 6
    def conv(x):
        x = x.replace('+ ', '', 1) if x.startswith('+ ') else x
        x = re.sub(r'\b(k3|q) 1\b', r'\1', x)
        x = re.sub(r'\bk1 1\b', 'k', x)
        x = re.sub(r'\beps 1\b', 'e', x)
        x = re.sub(r'\bk1 (\d+)', r'k^\1', x)
        x = re.sub(r'\b(k3|q) (\d+)', r'\1^\2', x)
        return re.sub(r'\(power (\([^()]*\)) 3\)', r'\1^3', x)
    def cut(x):
        """Without the logarithm, and the power of its denominator."""
        j = x.index('*2*(Real.log') if '*2*(Real.log' in x else x.index('*(Real.log')
        z = closing(x, x.index('(Real.log'))
        return x[:j] + x[z + 1:]
    S = '(k^2*k3^2 - k3^2*q^2 + q^4)'
    TT = '(k^4 - 2*k^2*q^2 + k3^2*q^2 + q^4)'
    pieces = [('I0', conv(T[0]) + ' ' + T[1][:2] + conv(T[1]), 'without logarithms'),
              ('I1', cut(conv(T[2])), 'with `LFunc(k1,q)`'), ('I3', cut(conv(T[3])), 'with `LFunc(k3,q)`')]
    for n, x, what in [('IS', conv(T[4]), 'with the logarithm of `WFunc(k1,k3,k1,q)` over its square root'),
                       ('IT', conv(T[5]), 'with the logarithm of `WFunc(k1,k1,k3,q)` over its square root')]:
        x = cut(x)
        m = S if n == 'IS' else TT
        x = x.replace('(%s^(1.5:ℝ))' % m, m)
        if t == 't' and n == 'IS':
            assert x.endswith('/((k*%s)^(1.5:ℝ))' % m)
            x = x.replace('/((k*%s)^(1.5:ℝ))' % m, '/(k*%s)' % m)
            what += ', with the factor `k1` outside the power'
        assert '1.5' not in x and 'log' not in x
        pieces.append((n, x, what))
    for n, x, what in pieces:
        x = re.sub(r'^-\s', '-', x)
        print('/-- The part of `kernel_gamma2%s_iso` %s (`%s`), without the factor `π`. -/\ndef g2%s%s (k e k3 q : ℝ) : ℝ :=\n%s\n' % (
            t, what, re.search(r'`kernel_gamma2%s_iso` \(`(src/[^`]*)`\)' % t, iso).group(1), t, n, w('(%s)/(6.20928e6*q^5)' % x)))
print('end\n\nend Verif')
