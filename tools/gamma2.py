#!/usr/bin/env python3
"""Transcribe the kernels of src/gamma2d_1loop.c and src/gamma2t_1loop.c into Lean definitions.

Reads /repo only as text.  Usage: gamma2.py d|t > Verif/Model/Gamma2d.lean, gamma2.py iso > Verif/Model/Gamma2Iso.lean
"""
import re, sys, textwrap

TOK = re.compile(r'\s*(?:(\d+\.?\d*(?:e[+-]?\d+)?)|([A-Za-z_]\w*)|(.))', re.S)

def tokens(s):
    out = []
    pos = 0
    s = s.strip()
    while pos < len(s):
        m = TOK.match(s, pos)
        pos = m.end()
        if m.group(1): out.append(('num', m.group(1)))
        elif m.group(2): out.append(('id', m.group(2)))
        elif m.group(3).strip(): out.append(('op', m.group(3)))
    return out

class P:
    def __init__(self, toks): self.t = toks; self.i = 0
    def peek(self): return self.t[self.i] if self.i < len(self.t) else (None, None)
    def next(self): self.i += 1; return self.t[self.i - 1]
    def eat(self, v):
        k, w = self.next()
        assert w == v, (v, w, self.t[max(0, self.i - 10):self.i + 5])
    def expr(self):
        a = self.term()
        while self.peek()[1] in ('+', '-'):
            op = self.next()[1]
            a = (op, a, self.term())
        return a
    def term(self):
        a = self.unary()
        while self.peek()[1] in ('*', '/'):
            op = self.next()[1]
            a = (op, a, self.unary())
        return a
    def unary(self):
        if self.peek()[1] == '-':
            self.next()
            return ('neg', self.unary())
        return self.atom()
    def atom(self):
        k, v = self.next()
        if k == 'num': return ('num', v)
        if v == '(':
            e = self.expr()
            self.eat(')')
            return e
        assert k == 'id', (k, v)
        if self.peek()[1] == '[':
            self.next()
            n = self.next()[1]
            self.eat(']')
            return ('pow', v, int(n))
        if self.peek()[1] == '(':
            self.next()
            args = [self.expr()]
            while self.peek()[1] == ',':
                self.next()
                args.append(self.expr())
            self.eat(')')
            return ('call', v, args)
        return ('id', v)

def parse(s):
    p = P(tokens(s))
    e = p.expr()
    assert p.i == len(p.t), p.t[p.i:]
    return e

def num(v):
    if 'e' in v: return v
    if v.endswith('.'): return v[:-1]
    return v

PREC = {'+': 65, '-': 65, '*': 70, '/': 70}

def lean(e, prec=0):
    k = e[0]
    if k == 'num': return num(e[1])
    if k == 'id': return {'M_PI': 'π'}.get(e[1], e[1])
    if k == 'pow':
        s = '%s %d' % (e[1], e[2])
        return '(' + s + ')' if prec > 75 else s
    if k == 'neg':
        s = '-' + lean(e[1], 75)
        return '(' + s + ')' if prec > 65 else s
    if k == 'call':
        f, a = e[1], e[2]
        name = {'my_log': 'Real.log', 'my_sqrt': 'Real.sqrt', 'LFunc': 'LFunc', 'WFunc': 'WFunc', 'small_beta': 'smallBeta',
                'big_beta': 'bigBeta', 'my_abs': 'abs', 'power': 'power'}.get(f)
        if f == 'my_pow':
            return '(' + lean(a[0], 100) + '^(%s:ℝ))' % num(a[1][1])
        s = name + ''.join(' ' + lean(x, 1000) for x in a)
        return '(' + s + ')' if prec > 70 else s
    p = PREC[k]
    s = lean(e[1], p) + {'+': ' + ', '-': ' - ', '*': '*', '/': '/'}[k] + lean(e[2], p + 1)
    return '(' + s + ')' if prec > p else s

def atomfix(s):
    return s

def wrap(s, ind):
    return '\n'.join(textwrap.wrap(s.replace(') ', ') '), 148, initial_indent=ind, subsequent_indent=ind + '  ', break_long_words=False, break_on_hyphens=False))

def fn_bodies(src):
    out = {}
    for m in re.finditer(r'^histo_t (kernel_gamma2[dt]_\w+)\(histo_t k1_,histo_t k2_,histo_t k3_,histo_t q_\)\s*\{(.*?)^\}', src, re.M | re.S):
        out[m.group(1)] = (m.group(2), src[:m.start(2)].count('\n') + 1, src[:m.start()].count('\n') + 1, src[:m.end()].count('\n') + 1)
    return out

def strip_comments(s):
    def blank(m): return re.sub(r'[^\n]', ' ', m.group(0))
    s = re.sub(r'/\*.*?\*/', blank, s, flags=re.S)
    return re.sub(r'//[^\n]*', blank, s)

def statements(body, line0):
    pos = 0
    for s in re.findall(r'[^;]*;', body):
        lead = len(s) - len(s.lstrip())
        a = line0 + body[:pos + lead].count('\n')
        b = line0 + body[:pos + len(s)].count('\n')
        pos += len(s)
        yield s.strip().rstrip(';').strip(), a, b

def main(t):
    fn = 'src/gamma2%s_1loop.c' % t
    src = strip_comments(open('/repo/' + fn).read())
    fs = fn_bodies(src)
    G = 'g2' + t
    out = []
    w = out.append
    w('''import Verif.Model.Powers
import Mathlib.Analysis.SpecialFunctions.Pow.Real

/-!
# `%s`

The kernels, transcribed by `tools/gamma2.py`.  A cell `k1[n]` of the arrays filled by `powers` (`src/common.c:93-99`, see `C01_powers`)
is written `k1 n`, the arrays being functions of the index (`pw x n = x^n`); the largest index used is %d, inside the %d cells of the arrays.  `kernel_gamma2%s_iso`, which is never called, is
in `Model/Gamma2Iso.lean`.
-/

namespace Verif

noncomputable section

open Real
''' % (fn, max(int(i) for f in fs for i in re.findall(r'\b(?:k1|k2|k3|q|eps|k)\[(\d+)\]', fs[f][0])), 20, t))
    arg = '(k1 k2 k3 q : ℕ → ℝ) : ℝ'
    rarg = '(k1 k2 k3 q : ℝ) : ℝ'
    pws = '(pw k1) (pw k2) (pw k3) (pw q)'
    ne = len(re.findall(r'histo_t kernel(\d) = ', fs['kernel_gamma2%s_exact' % t][0]))
    # exact
    body, l0, _, _ = fs['kernel_gamma2%s_exact' % t]
    for s, a, b in statements(body, l0):
        m = re.match(r'histo_t kernel(\d) = (.*)$', s, re.S)
        if m:
            w('/-- `kernel%s` of `kernel_gamma2%s_exact` (`%s:%d-%d`). -/\ndef %sExact%s %s :=\n%s\n' % (m.group(1), t, fn, a, b, G, m.group(1), arg, wrap(lean(parse(m.group(2))), '  ')))
        elif s.startswith('return'):
            e = parse(s[6:])
            assert lean(e) == ' + '.join('kernel%d' % i for i in range(1, ne + 1)), lean(e)
    _, _, a, b = fs['kernel_gamma2%s_exact' % t]
    w('/-- `kernel_gamma2%s_exact` (`%s:%d-%d`). -/\ndef %sExact %s :=\n  %s\n' % (t, fn, a, b, G, rarg, ' + '.join('%sExact%d %s' % (G, i, pws) for i in range(1, ne + 1))))
    for nm in ('highk', 'lowk'):
        body, l0, a, b = fs['kernel_gamma2%s_%s' % (t, nm)]
        r = [s for s, _, _ in statements(body, l0) if s.startswith('return')]
        assert len(r) == 1
        w('/-- The expression of `kernel_gamma2%s_%s` (`%s:%d-%d`). -/\ndef %s%sE %s :=\n%s\n' % (t, nm, fn, a, b, G, nm.capitalize(), arg, wrap(lean(parse(r[0][6:])), '  ')))
        w('/-- `kernel_gamma2%s_%s` (`%s:%d-%d`). -/\ndef %s%s %s := %s%sE %s\n' % (t, nm, fn, a, b, G, nm.capitalize(), rarg, G, nm.capitalize(), pws))
    # elongate
    body, l0, a, b = fs['kernel_gamma2%s_elongate' % t]
    m = re.search(r'if \(k1_(>=?)k2_\) \{\s*k_ = k1_;\s*eps_ = k2_ / k1_;\s*\}\s*else \{\s*k_ = k2_;\s*eps_ = k1_ / k2_;\s*\}', body)
    cmp = {'>': '<', '>=': '≤'}[m.group(1)]
    r = [(s, x, y) for s, x, y in statements(body, l0) if s.startswith('return')]
    e = lean(parse(r[0][0][6:]))
    assert not re.search(r'\bk[12]\b', e)
    w('/-- The expression of `kernel_gamma2%s_elongate` (`%s:%d-%d`); it uses neither `k1` nor `k2`. -/\ndef %sElongateE (k eps k3 q : ℕ → ℝ) : ℝ :=\n%s\n' % (t, fn, r[0][1], r[0][2], G, wrap(e, '  ')))
    w('open Classical in\n/-- `kernel_gamma2%s_elongate` (`%s:%d-%d`). -/\ndef %sElongate %s :=\n  if k2 %s k1 then %sElongateE (pw k1) (pw (k2/k1)) (pw k3) (pw q) else %sElongateE (pw k2) (pw (k1/k2)) (pw k3) (pw q)\n' % (t, fn, a, b, G, rarg, cmp, G, G))
    # coll
    body, l0, a, b = fs['kernel_gamma2%s_coll' % t]
    assert 'powers(k3_/k2_,eps,NPOWERS)' in body
    r = [(s, x, y) for s, x, y in statements(body, l0) if s.startswith('return')]
    e = parse(r[0][0][6:])
    terms = []
    while e[0] == '+':
        terms.insert(0, e[2]); e = e[1]
    terms.insert(0, e)
    assert len(terms) == 3, len(terms)
    for i, e in enumerate(terms):
        le = lean(e)
        assert not re.search(r'\bk3\b', le)
        w('/-- Term %d of `kernel_gamma2%s_coll` (`%s:%d-%d`). -/\ndef %sColl%d (k1 k2 %s q : ℕ → ℝ) : ℝ :=\n%s\n' % (i, t, fn, r[0][1], r[0][2], G, i, 'eps' if i else '_eps', wrap(le, '  ')))
    w('/-- `kernel_gamma2%s_coll` (`%s:%d-%d`). -/\ndef %sColl %s :=\n  %s\n' % (t, fn, a, b, G, rarg, ' + '.join('%sColl%d (pw k1) (pw k2) (pw (k3/k2)) (pw q)' % (G, i) for i in range(3))))
    # reg3rd
    body, l0, a, b = fs['kernel_gamma2%s_reg3rd' % t]
    npoly = 0
    for s, x, y in statements(body, l0):
        m = re.match(r'kernel_(poly|beta)\[(\d+)\]\s*=\s*(.*)$', s, re.S)
        if m:
            if m.group(1) == 'poly': npoly += 1
            w('/-- `kernel_%s[%s]` of `kernel_gamma2%s_reg3rd` (`%s:%d-%d`). -/\ndef %s%s%s %s :=\n%s\n' % (m.group(1), m.group(2), t, fn, x, y, G, m.group(1).capitalize(), m.group(2), arg, wrap(lean(parse(m.group(3))), '  ')))
    assert 'kernel_poly[%d]' % npoly in body and 'i<%d' % npoly in body and 'return 4.*(kernel_poly_sum + kernel_beta_sum)' in body
    m = re.search(r'kernel_poly_sum \+= kernel_poly\[i\]/\((.*)\);', body)
    w('/-- The common denominator of the polynomial part of `kernel_gamma2%s_reg3rd`. -/\ndef %sDen %s :=\n%s\n' % (t, G, arg, wrap(lean(parse(m.group(1))), '  ')))
    w('/-- `kernel_gamma2%s_reg3rd` (`%s:%d-%d`). -/\ndef %sReg3rd %s :=\n%s\n' % (t, fn, a, b, G, rarg, wrap(
        '4*((%s) + (%s))' % (' + '.join('%sPoly%d %s/%sDen %s' % (G, i, pws, G, pws) for i in range(npoly)), ' + '.join('%sBeta%d %s' % (G, i, pws) for i in range(5))), '  ')))
    w('end\n\nend Verif')
    print('\n'.join(out))

def main_iso():
    print('''import Verif.Model.Gamma2d
import Verif.Model.Gamma2t

/-!
# `kernel_gamma2d_iso` and `kernel_gamma2t_iso`

Transcribed by `tools/gamma2.py iso`.  These kernels are never called; they are meant for nearly isosceles triangles.
-/

namespace Verif

noncomputable section

open Real
''')
    for t in 'dt':
        fn = 'src/gamma2%s_1loop.c' % t
        fs = fn_bodies(strip_comments(open('/repo/' + fn).read()))
        body, l0, a, b = fs['kernel_gamma2%s_iso' % t]
        assert 'powers(k2_/k1_ - 1.,eps,NPOWERS)' in body
        r = [(s, x, y) for s, x, y in statements(body, l0) if s.startswith('return')]
        assert len(r) == 1
        e = lean(parse(r[0][0][6:]))
        assert not re.search(r'\bk2\b', e)
        print('/-- The expression of `kernel_gamma2%s_iso` (`%s:%d-%d`). -/\ndef g2%sIsoE (k1 eps k3 q : ℕ → ℝ) : ℝ :=\n%s\n' % (t, fn, r[0][1], r[0][2], t, wrap(e, '  ')))
        print('/-- `kernel_gamma2%s_iso` (`%s:%d-%d`). -/\ndef g2%sIso (k1 k2 k3 q : ℝ) : ℝ := g2%sIsoE (pw k1) (pw (k2/k1 - 1)) (pw k3) (pw q)\n' % (t, fn, a, b, t, t))
    print('end\n\nend Verif')

main_iso() if sys.argv[1] == 'iso' else main(sys.argv[1])
