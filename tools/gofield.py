#!/usr/bin/env python3
"""Translate the straight-line field arithmetic of crypto/core/curves/native into Lean.

usage: gofield.py NAME GOFILE  -> writes lean/Verif/Native/NAME/{Code,Proof}.lean
Every Go statement becomes one instruction of Verif.Native.Word (continuation style); nested sums and masks get names
y1, y2, ...; `uint64(uint1(c))` around a carry is dropped.  The proof script is generated along with the code: it is a
list of rule applications, then one linear combination of the step equations with weights 2^(64*position).
"""
import re, sys, os
W = 2**64
def funcs(path):
    out, cur = {}, None
    lines = open(path).read().split('\n')
    for no, l in enumerate(lines, 1):
        m = re.match(r'func (\w+)\(', l)
        if m:
            name = re.sub(r'^fiat_pasta_f[pq]_', '', m.group(1))
            name = name.lower().replace('_', '')
            cur = dict(name=name, start=no, body=[], go=m.group(1))
        elif l == '}' and cur:
            cur['end'] = no; out[cur['name']] = cur; cur = None
        elif cur is not None:
            s = l.strip()
            if s and not s.startswith('//') and not s.startswith('var '):
                s = re.sub(r'fiat_pasta_f[pq]_', '', s).replace('cmovznz_u64', 'cmovznzU64')
                s = s.replace('addcarryx_u64', 'bits.Add64').replace('subborrowx_u64', 'bits.Sub64')
                cur['body'].append(s)
    return out
def split_args(s):
    r, d, c = [], 0, ''
    for ch in s:
        if ch == ',' and d == 0: r.append(c.strip()); c = ''; continue
        if ch == '(': d += 1
        if ch == ')': d -= 1
        c += ch
    r.append(c.strip()); return r
def strip_paren(e):
    while e.startswith('('):
        d = 0
        for i, ch in enumerate(e):
            d += ch == '('; d -= ch == ')'
            if d == 0: break
        if i == len(e) - 1: e = e[1:-1].strip()
        else: break
    return e
class Prog:
    def __init__(s, f, signed):
        s.f = f; s.ins = []; s.alias = {}; s.n = 0; s.out = {}; s.signed = signed
        for st in f['body']: s.stmt(st)
    def fresh(s): s.n += 1; return 'y%d' % s.n
    def atom(s, e):
        e = strip_paren(e)
        while True:
            m = re.match(r'^(uint64|uint1)\((.*)\)$', e)
            if m and strip_paren('(' + m.group(2) + ')') is not None:
                # make sure the parenthesis spans the whole expression
                d = 0; ok = True
                for i, ch in enumerate(e):
                    d += ch == '('; d -= ch == ')'
                    if d == 0 and ch == ')' and i != len(e) - 1: ok = False; break
                if ok: e = strip_paren(m.group(2)); continue
            break
        if re.match(r'^x\d+$', e): return s.alias.get(e, e)
        if re.match(r'^0x[0-9a-f]+$', e): return e
        m = re.match(r'^arg(\d)\[(\d)\]$', e)
        if m: return 'ab'[int(m.group(1)) - 1] + '.l' + m.group(2)
        # binary
        d = 0
        for op in ('+', '&'):
            d = 0
            for i, ch in enumerate(e):
                d += ch == '('; d -= ch == ')'
                if d == 0 and ch == op:
                    l, r = s.atom(e[:i].strip()), s.atom(e[i+1:].strip())
                    y = s.fresh()
                    s.ins.append(('plus' if op == '+' else 'and', [y], [l, r])); return y
        raise Exception('atom ' + e)
    def stmt(s, st):
        m = re.match(r'^(\w+), (\w+) = bits\.(Mul64|Add64|Sub64)\((.*)\)$', st)
        if m:
            a, b, op, args = m.groups()
            args = [s.atom(x) for x in split_args(args)]
            if a == '_': a = s.fresh()
            if b == '_': b = s.fresh()
            s.ins.append((op, [a, b], args)); return
        m = re.match(r'^cmovznzU64\(&(x\d+), (.*)\)$', st)
        if m:
            s.ins.append(('cmovS' if s.signed else 'cmov', [m.group(1)], [s.atom(x) for x in split_args(m.group(2))])); return
        m = re.match(r'^out1\[(\d)\] = (.*)$', st)
        if m: s.out[int(m.group(1))] = s.atom(m.group(2)); return
        m = re.match(r'^(x\d+) := (.*)$', st)
        if m:
            x, e = m.groups()
            n0 = len(s.ins); a = s.atom(e)
            if len(s.ins) > n0 and s.ins[-1][1] == [a] and a.startswith('y'):
                op, o, ar = s.ins[-1]; s.ins[-1] = (op, [x], ar)
            else: s.alias[x] = a
            return
        raise Exception('stmt ' + st)
    def lean(s, name):
        nargs = 2 if any(x.startswith('b.') for i in s.ins for x in i[2]) else 1
        L = ['def %s (%s : L4) : L4 :=' % (name, 'a b' if nargs == 2 else 'a')]
        ops = dict(plus='Plus', cmov='Cmov', cmovS='CmovS'); ops['and'] = 'And'
        for op, o, ar in s.ins:
            L.append('  %s %s fun %s =>' % (ops.get(op, op), ' '.join(ar), ' '.join(o)))
        L.append('  L4.mk ' + ' '.join(s.out[i] for i in range(4)))
        s.nargs = nargs
        return '\n'.join(L)
def islit(x): return x.startswith('0x')
class Proof:
    """Rule applications, with bounds, for one program."""
    def __init__(p, prog, modulus):
        p.pr = prog; p.m = modulus; p.lines = []; p.bound = {}; p.ub = {}; p.lits = set(); p.steps = []; p.wraps = []
    def bnd(p, x):
        """(numeral bound, proof) of z x <= bound."""
        if islit(x): p.lits.add(x); return int(x, 16), '(le_of_eq zl_%s)' % x[2:]
        if x in p.ub: return p.ub[x]
        return W - 1, '(z_le %s)' % x
    def run(p):
        for op, o, ar in p.pr.ins:
            for x in ar:
                if islit(x): p.lits.add(x)
            if op == 'Mul64':
                hi, lo = o
                p.lines.append('refine wp_mul P _ _ _ fun %s %s h_%s => ?_' % (hi, lo, lo))
                p.steps.append((op, o, ar, 'h_' + lo))
                c = [x for x in ar if islit(x)]
                if c and ar[1] == c[0] and int(c[0], 16) > 0:
                    C = int(c[0], 16) - 1
                    p.ub[hi] = (C, '(mulhi_lt %d (by rw [zl_%s]; norm_num) (by norm_num) h_%s)' % (C, c[0][2:], lo))
                else:
                    p.ub[hi] = (W - 2, '(mulhi_le h_%s)' % lo)
            elif op == 'Add64' or op == 'Sub64':
                s, c = o
                b, pf = p.bnd(ar[2])
                if b > 1: raise Exception('carry bound %s %s' % (ar[2], b))
                if islit(ar[2]): pf = '(by rw [zl_%s]; norm_num)' % ar[2][2:]
                p.lines.append('refine wp_%s P _ _ _ _ %s fun %s %s h_%s c_%s => ?_' % (op[:3].lower(), pf, s, c, s, c))
                p.ub[c] = (1, 'c_' + c)
                p.steps.append((op, o, ar, 'h_' + s))
            elif op == 'plus':
                (A, pa), (B, pb) = p.bnd(ar[0]), p.bnd(ar[1])
                s = o[0]
                if A + B < W:
                    p.lines.append('refine wp_plus P %d %d _ _ _ %s %s (by norm_num) fun %s h_%s c_%s => ?_' % (A, B, pa, pb, s, s, s))
                    p.ub[s] = (A + B, 'c_%s' % s)
                else:
                    p.lines.append('refine wp_plus_wrap P _ _ _ fun %s ov_%s h_%s c_%s => ?_' % (s, s, s, s))
                    p.wraps.append(s)
                p.steps.append((op, o, ar, 'h_' + s))
            elif op in ('cmov', 'cmovS'):
                b, pf = p.bnd(ar[0]); assert b <= 1
                p.lines.append('refine wp_%s P _ _ _ _ %s fun %s ra_%s rb_%s => ?_' % (op, pf, o[0], o[0], o[0]))
            elif op == 'and':
                p.lines.append('refine wp_and P _ _ _ fun %s ra_%s rb_%s => ?_' % (o[0], o[0], o[0]))
        return p
def positions(pr, anchors):
    """offset union-find: position of every word."""
    par, off = {}, {}
    def find(x):
        if x not in par: par[x] = x; off[x] = 0
        if par[x] == x: return x, 0
        r, d = find(par[x]); par[x] = r; off[x] += d if False else 0
        return r, off[x] + d
    def root(x):
        d = 0
        par.setdefault(x, x); off.setdefault(x, 0)
        while par[x] != x: d += off[x]; x = par[x]
        return x, d
    def tie(x, y, k):  # pos x = pos y + k
        (rx, dx), (ry, dy) = root(x), root(y)
        if rx == ry:
            assert dx == dy + k, (x, y, k, dx, dy)
        else: par[rx] = ry; off[rx] = dy + k - dx
    for op, o, ar in pr.ins:
        if op == 'Mul64': tie(o[0], o[1], 1)
        elif op in ('Add64', 'Sub64'):
            tie(o[1], o[0], 1)
            for x in ar:
                if not islit(x): tie(x, o[0], 0)
        elif op == 'plus':
            for x in ar:
                if not islit(x): tie(x, o[0], 0)
    for x, k in anchors: tie(x, 'ORIGIN', k)
    def pos(x):
        r, d = root(x); ro, do = root('ORIGIN')
        return d - do if r == ro else None
    return pos
def zlit(v): return str(v)
def word(x): return 'z ' + x if not islit(x) else 'z ' + x
def lc_terms(P, steps, pos, dropped, base=0):
    """linear combination of the step equations, weighted by position; literals replaced by numerals."""
    T = []
    for op, o, ar, h in steps:
        lo = o[1] if op == 'Mul64' else o[0]
        if lo in dropped: k = dropped[lo][1]
        else: k = pos(lo)
        if k is None: continue
        w = '18446744073709551616 ^ %d' % k
        if op == 'Mul64' and ('Mul', lo) in P.skip: continue
        T.append('%s * %s' % (w, h))
        if op == 'Mul64':
            for i in (0, 1):
                if islit(ar[i]): T.append('%s * z %s * zl_%s' % (w, ar[1 - i], ar[i][2:]))
        else:
            for i, x in enumerate(ar):
                if islit(x):
                    sg = '-' if (op == 'Sub64' and i > 0) else ''
                    T.append('%s(%s) * zl_%s' % (sg, w, x[2:]))
    for lo, (hname, k) in dropped.items():
        T.append('-(18446744073709551616 ^ %d) * %s' % (k, hname))
    return T
def valexpr(v): return 'z %s.l0 + 18446744073709551616 * z %s.l1 + 18446744073709551616 ^ 2 * z %s.l2 + 18446744073709551616 ^ 3 * z %s.l3' % (v, v, v, v)
def gen_mont(P, name, kind, m, inv, r2):
    """mul / square / frommontgomery / tomontgomery."""
    pr = P.pr
    ins = pr.ins
    # find reduction steps: u = t*inv ; lo = u*m0 ; dropped add
    m0 = m % W
    red = []
    users = {}
    for i, (op, o, ar) in enumerate(ins):
        for x in ar: users.setdefault(x, []).append(i)
    P.skip = set()
    muls = {o[1]: (i, o, ar) for i, (op, o, ar) in enumerate(ins) if op == 'Mul64'}
    drops = [(i, o, ar) for i, (op, o, ar) in enumerate(ins) if op == 'Add64' and o[0].startswith('y') and o[0] not in users and o[1] in users]
    assert len(drops) == 4, len(drops)
    dropped, anchors, us = {}, [], []
    extra = []
    for r, (i, o, ar) in enumerate(drops):
        t, lo = ar[0], ar[1]
        ii, oo, aa = muls[lo]
        assert islit(aa[1]) and int(aa[1], 16) == m0, (aa, hex(m0))
        u = aa[0]
        if u == t:
            extra.append(('red%d' % r, 'have e_%s : z %s = 0 := redc_low\' (by rw [zl_%s]; norm_num) h_%s zl_0 h_%s' % (o[0], o[0], aa[1][2:], lo, o[0])))
        else:
            iu, ou, au = muls[u]
            assert au[0] == t and islit(au[1]) and (1 + int(au[1], 16) * m0) % W == 0
            P.skip.add(('Mul', u))
            extra.append(('red%d' % r, 'have e_%s : z %s = 0 := redc_low (by rw [zl_%s, zl_%s]; norm_num) h_%s h_%s zl_0 h_%s' % (o[0], o[0], au[1][2:], aa[1][2:], u, lo, o[0])))
        assert ar[2] == '0x0'
        dropped[o[0]] = ('e_' + o[0], r)
        anchors.append((o[0], r)); us.append(u)
    pos = positions(pr, anchors)
    # u words are used as multiplicands only; their own position is irrelevant
    # find the final subtraction: first Sub64
    subs = [(op, o, ar) for (op, o, ar) in ins if op == 'Sub64']
    assert len(subs) == 5
    xs = [s[2][0] for s in subs]; ds = [s[1][0] for s in subs]; b = subs[4][1][1]
    ms = [int(s[2][1], 16) for s in subs]
    assert sum(v << (64 * i) for i, v in enumerate(ms)) == m and all(islit(s[2][1]) for s in subs)
    cm = [(o, ar) for (op, o, ar) in ins if op in ('cmov', 'cmovS')]
    rs = [pr.out[i] for i in range(4)]
    assert [c[0][0] for c in cm] == rs
    assert all(c[1] == [b, ds[i], xs[i]] for i, c in enumerate(cm))
    T = 'z %s + 18446744073709551616 * z %s + 18446744073709551616 ^ 2 * z %s + 18446744073709551616 ^ 3 * z %s + 18446744073709551616 ^ 4 * z %s' % tuple(xs)
    U = 'z %s + 18446744073709551616 * z %s + 18446744073709551616 ^ 2 * z %s + 18446744073709551616 ^ 3 * z %s' % tuple(us)
    steps = [s for s in P.steps if s[0] != 'Sub64']
    X = {'mul': 'a.zval * b.zval', 'square': 'a.zval * a.zval', 'frommontgomery': 'a.zval', 'tomontgomery': 'a.zval * %d' % r2}[kind]
    Xn = {'mul': 'a.val * b.val', 'square': 'a.val * a.val', 'frommontgomery': 'a.val', 'tomontgomery': 'a.val * %d' % r2}[kind]
    hyp = {'mul': '(h : a.val * b.val < 2 ^ 256 * %d)' % m, 'square': '(h : a.val * a.val < 2 ^ 256 * %d)' % m, 'frommontgomery': '', 'tomontgomery': ''}[kind]
    lc = lc_terms(P, steps, pos, dropped)
    if islit(xs[4]): lc.append('18446744073709551616 ^ 8 * zl_0')
    args = 'a b' if pr.nargs == 2 else 'a'
    L = ['theorem %s_spec (%s : L4) %s : Redc %d (%s) (%s %s) := by' % (name, args, hyp, m, Xn, name, args)]
    L.append('  suffices H : ∀ P : L4 → Prop, (∀ r, Redc %d (%s) r → P r) → P (%s %s) from H _ (fun _ h => h)' % (m, Xn, name, args))
    L.append('  intro P hP')
    lits = sorted(P.lits | {'0x0'}, key=lambda t: int(t, 16))
    for l in lits: L.append('  have zl_%s : z %s = %d := rfl' % (l[2:], l, int(l, 16)))
    L.append('  unfold %s' % name)
    L += ['  ' + l for l in P.lines]
    L += ['  ' + e[1] for e in extra]
    wr = ''.join(' + 18446744073709551616 ^ %d * ov_%s' % (pos(s) + 1, s) for s in P.wraps)
    L.append('  have hI : (%s) * 18446744073709551616 ^ 4%s = %s + (%s) * %d := by' % (T, wr, X, U, m))
    L.append('    unfold L4.zval')
    L.append('    linear_combination ' + ' + '.join(lc))
    slc = []
    for i, (op, o, ar) in enumerate(subs):
        w = '18446744073709551616 ^ %d' % i
        slc.append('%s * h_%s - %s * zl_%s' % (w, o[0], w, ar[1][2:]))
        if islit(ar[2]): slc.append('-(%s) * zl_%s' % (w, ar[2][2:]))
    L.append('  have hD : z %s + 18446744073709551616 * z %s + 18446744073709551616 ^ 2 * z %s + 18446744073709551616 ^ 3 * z %s + 18446744073709551616 ^ 4 * z %s - 18446744073709551616 ^ 5 * z %s = %s - %d := by' % (*ds, b, T, m))
    L.append('    linear_combination ' + ' + '.join(slc))
    L.append('  have hU : %s ≤ 18446744073709551616 ^ 4 - 1 := zsum_le _ _ _ _' % U)
    if P.wraps: L.append('  have hwr : 0 ≤ (0:ℤ)%s := by positivity' % wr)
    if kind == 'mul': L.append('  have hX : a.zval * b.zval < 18446744073709551616 ^ 4 * %d := by rw [L4.zval_eq, L4.zval_eq]; exact_mod_cast h' % m)
    elif kind == 'square': L.append('  have hX : a.zval * a.zval < 18446744073709551616 ^ 4 * %d := by rw [L4.zval_eq]; exact_mod_cast h' % m)
    elif kind == 'frommontgomery': L.append('  have hX : a.zval < 18446744073709551616 ^ 4 * %d := by linarith only [zval_le a]' % m)
    else: L.append('  have hX : a.zval * %d < 18446744073709551616 ^ 4 * %d := by linarith only [zval_le a]' % (r2, m))
    return L, dict(T=T, U=U, X=X, Xn=Xn, xs=xs, ds=ds, b=b, rs=rs, m=m, wraps=P.wraps, subs=subs, cm=cm, kind=kind)
def finish_mont(L, d, redc=True):
    m = d['m']
    wr = ', hwr' if d['wraps'] else ''
    L.append('  have hT : %s < 2 * %d := by' % (d['T'], m))
    L.append('    generalize %s = X at hI hX' % d['X'])
    L.append('    linarith only [hI, hX, hU%s]' % wr)
    L.append('  obtain ⟨hlt, hk⟩ := condsub %d hD c_%s (by norm_num) (by norm_num) hT %s' % (m, d['b'], ' '.join('ra_%s rb_%s' % (r, r) for r in d['rs'])))
    L.append('  refine hP _ (redc_of _ _ _ _ _ _ _ (by norm_num) ?_ hlt hk hI)')
    L.append({'mul': '  rw [L4.zval_eq, L4.zval_eq]; exact (Nat.cast_mul _ _).symm',
      'square': '  rw [L4.zval_eq]; exact (Nat.cast_mul _ _).symm', 'frommontgomery': '  exact L4.zval_eq a',
      'tomontgomery': '  rw [L4.zval_eq, Nat.cast_mul, Nat.cast_ofNat]'}[d['kind']])
    return L
CITE = {}
def main():
    name, path = sys.argv[1], sys.argv[2]
    rel = 'crypto/core/curves/native/' + path
    F = funcs('/repo/' + rel)
    signed = 'pasta' in path
    # modulus: from the constants of the addition
    pa = Prog(F['add'], signed)
    subs = [i for i in pa.ins if i[0] == 'Sub64']
    m = sum(int(s[2][1], 16) << (64 * i) for i, s in enumerate(subs))
    inv = (-pow(m, -1, W)) % W
    r2 = pow(2, 512, m)
    lean = {'mul': 'mul', 'square': 'square', 'add': 'add', 'sub': 'sub', 'opp': 'opp', 'frommontgomery': 'fromMont', 'tomontgomery': 'toMont'}
    code = ['import Verif.Native.Word', '', '/-!', '# Generated code of `%s`' % rel, '',
      'Translated statement by statement by `tools/gofield.py`; see `Verif.Native.Word` for the instructions.', '-/', '',
      'namespace Verif.Native.%s' % name, '', 'set_option maxRecDepth 100000', 'set_option linter.unusedVariables false', '']
    proofs = ['import Verif.Native.%s.Code' % name, '', '/-!', '# Arithmetic of `%s`: proofs (generated by `tools/gofield.py`)' % rel, '-/', '',
      'set_option linter.unusedVariables false', 'set_option linter.unusedSectionVars false', 'set_option maxRecDepth 100000', 'set_option maxHeartbeats 4000000', '',
      'namespace Verif.Native.%s' % name, '']
    for k in ('mul', 'square', 'add', 'sub', 'opp', 'frommontgomery', 'tomontgomery'):
        f = F[k]; pr = Prog(f, signed)
        code += ['/-- `%s` (%s:%d-%d). -/' % (f['go'], rel, f['start'], f['end']), pr.lean(lean[k]), '']
        P = Proof(pr, m).run()
        if k in ('mul', 'square', 'frommontgomery', 'tomontgomery'):
            L, d = gen_mont(P, lean[k], k, m, inv, r2)
            if P.wraps: print(name, k, 'wraps', P.wraps)
            L = finish_mont(L, d)
        elif k == 'add':
            L = gen_add(P, m)
        else:
            L = gen_sub(P, k, m)
        proofs += L + ['']
    code += ['end Verif.Native.%s' % name, '']
    proofs += ['end Verif.Native.%s' % name, '']
    d = '/verif/lean/Verif/Native/' + name
    os.makedirs(d, exist_ok=True)
    open(d + '/Code.lean', 'w').write('\n'.join(code))
    open(d + '/Proof.lean', 'w').write('\n'.join(proofs))
def gen_add(P, m):
    pr = P.pr; ins = pr.ins
    adds = [i for i in ins if i[0] == 'Add64']; subs = [i for i in ins if i[0] == 'Sub64']
    xs = [s[2][0] for s in subs]; ds = [s[1][0] for s in subs]; b = subs[4][1][1]
    rs = [pr.out[i] for i in range(4)]
    cm = [(o, ar) for (op, o, ar) in ins if op in ('cmov', 'cmovS')]
    T = 'z %s + 18446744073709551616 * z %s + 18446744073709551616 ^ 2 * z %s + 18446744073709551616 ^ 3 * z %s + 18446744073709551616 ^ 4 * z %s' % tuple(xs)
    L = ['theorem add_spec (a b : L4) (ha : a.val < %d) (hb : b.val < %d) : Reduced %d (a.val + b.val) (add a b) := by' % (m, m, m)]
    L.append('  suffices H : ∀ P : L4 → Prop, (∀ r, Reduced %d (a.val + b.val) r → P r) → P (add a b) from H _ (fun _ h => h)' % m)
    L.append('  intro P hP')
    for l in sorted(P.lits | {'0x0'}, key=lambda t: int(t, 16)): L.append('  have zl_%s : z %s = %d := rfl' % (l[2:], l, int(l, 16)))
    L.append('  unfold add')
    L += ['  ' + l for l in P.lines]
    lc = []
    for i, (op, o, ar) in enumerate(adds):
        lc.append('18446744073709551616 ^ %d * h_%s' % (i, o[0]))
        if islit(ar[2]): lc.append('18446744073709551616 ^ %d * zl_%s' % (i, ar[2][2:]))
    L.append('  have hI : %s = a.zval + b.zval := by' % T)
    L.append('    unfold L4.zval')
    L.append('    linear_combination ' + ' + '.join(lc))
    slc = []
    for i, (op, o, ar) in enumerate(subs):
        w = '18446744073709551616 ^ %d' % i
        slc.append('%s * h_%s - %s * zl_%s' % (w, o[0], w, ar[1][2:]))
        if islit(ar[2]): slc.append('-(%s) * zl_%s' % (w, ar[2][2:]))
    L.append('  have hD : z %s + 18446744073709551616 * z %s + 18446744073709551616 ^ 2 * z %s + 18446744073709551616 ^ 3 * z %s + 18446744073709551616 ^ 4 * z %s - 18446744073709551616 ^ 5 * z %s = %s - %d := by' % (*ds, b, T, m))
    L.append('    linear_combination ' + ' + '.join(slc))
    L.append('  have hT : %s < 2 * %d := by' % (T, m))
    L.append('    rw [hI, L4.zval_eq, L4.zval_eq]; omega')
    L.append('  obtain ⟨hlt, hk⟩ := condsub %d hD c_%s (by norm_num) (by norm_num) hT %s' % (m, b, ' '.join('ra_%s rb_%s' % (r, r) for r in rs)))
    L.append('  refine hP _ (reduced_of _ _ _ _ _ (by norm_num) ?_ hlt hk)')
    L.append('  rw [hI, L4.zval_eq, L4.zval_eq]; exact (Nat.cast_add _ _).symm')
    return L
def gen_sub(P, k, m):
    pr = P.pr; ins = pr.ins
    name = k
    adds = [i for i in ins if i[0] == 'Add64']; subs = [i for i in ins if i[0] == 'Sub64']
    ands = {o[0]: ar for (op, o, ar) in ins if op == 'and'}
    ds = [s[1][0] for s in subs]; b = subs[3][1][1]
    rs = [pr.out[i] for i in range(4)]
    cm = [(o, ar) for (op, o, ar) in ins if op in ('cmov', 'cmovS')]
    mask = cm[0][0][0]; assert cm[0][1] == [b, '0x0', '0xffffffffffffffff']
    ss = [a[1][0] for a in adds]; c = adds[3][1][1]; assert ss == rs
    ks = [a[2][1] for a in adds]
    for i, kk in enumerate(ks):
        mi = (m >> (64 * i)) % W
        if kk == mask: assert mi == W - 1
        elif islit(kk): assert int(kk, 16) == mi == 0, (kk, mi)
        else: assert ands[kk] == [mask, hex(mi)], (ands[kk], hex(mi))
    if k == 'sub':
        st, hyp, nat, D = '(a b : L4)', '(ha : a.val < %d) (hb : b.val < %d)' % (m, m), 'a.val + (%d - b.val)' % m, 'a.zval - b.zval'; args = 'a b'
    else:
        st, hyp, nat, D = '(a : L4)', '(ha : a.val < %d)' % m, '%d - a.val' % m, '0 - a.zval'; args = 'a'
    L = ['theorem %s_spec %s %s : Reduced %d (%s) (%s %s) := by' % (name, st, hyp, m, nat, name, args)]
    L.append('  suffices H : ∀ P : L4 → Prop, (∀ r, Reduced %d (%s) r → P r) → P (%s %s) from H _ (fun _ h => h)' % (m, nat, name, args))
    L.append('  intro P hP')
    for l in sorted(P.lits | {'0x0'}, key=lambda t: int(t, 16)): L.append('  have zl_%s : z %s = %d := rfl' % (l[2:], l, int(l, 16)))
    L.append('  unfold %s' % name)
    L += ['  ' + l for l in P.lines]
    slc = []
    for i, (op, o, ar) in enumerate(subs):
        w = '18446744073709551616 ^ %d' % i
        slc.append('%s * h_%s' % (w, o[0]))
        for j, x in enumerate(ar):
            if islit(x): slc.append('%s(%s) * zl_%s' % ('-' if j else '', w, x[2:]))
    L.append('  have hD : z %s + 18446744073709551616 * z %s + 18446744073709551616 ^ 2 * z %s + 18446744073709551616 ^ 3 * z %s - 18446744073709551616 ^ 4 * z %s = %s := by' % (*ds, b, D))
    L.append('    unfold L4.zval')
    L.append('    linear_combination ' + ' + '.join(slc))
    alc = []
    for i, (op, o, ar) in enumerate(adds):
        w = '18446744073709551616 ^ %d' % i
        alc.append('%s * h_%s' % (w, o[0]))
        if islit(ar[2]): alc.append('%s * zl_%s' % (w, ar[2][2:]))
    zs = ['z ' + x for x in ks]
    L.append('  have hS : z %s + 18446744073709551616 * z %s + 18446744073709551616 ^ 2 * z %s + 18446744073709551616 ^ 3 * z %s + 18446744073709551616 ^ 4 * z %s = z %s + 18446744073709551616 * z %s + 18446744073709551616 ^ 2 * z %s + 18446744073709551616 ^ 3 * z %s + %s + 18446744073709551616 * %s + 18446744073709551616 ^ 2 * %s + 18446744073709551616 ^ 3 * %s := by' % (*ss, c, *ds, *zs))
    L.append('    linear_combination ' + ' + '.join(alc))
    L.append('  have hk0 : z %s = 0 → %s := by' % (b, ' ∧ '.join(x + ' = 0' for x in zs)))
    L.append('    intro e')
    L.append('    have e1 : %s = 0 := ra_%s e' % (mask, mask))
    pf = []
    for kk in ks:
        if kk == mask: pf.append('by rw [e1]; rfl')
        elif islit(kk): pf.append('zl_0')
        else: pf.append('by rw [ra_%s e1]; rfl' % kk)
    L.append('    exact ⟨%s⟩' % ', '.join(pf))
    L.append('  have hk1 : z %s = 1 → %s + 18446744073709551616 * %s + 18446744073709551616 ^ 2 * %s + 18446744073709551616 ^ 3 * %s = %d := by' % (b, *zs, m))
    L.append('    intro e')
    L.append('    have e1 : %s = 0xffffffffffffffff := rb_%s e' % (mask, mask))
    rw = ['rb_%s e1' % kk for kk in ks if kk in ands]
    L.append('    rw [%s]; simp only [%s]; norm_num only' % (', '.join(rw + (['e1'] if mask in ks else [])), ', '.join('zl_' + l[2:] for l in P.lits)))
    L.append('  have ha\' : a.zval < %d := by rw [L4.zval_eq]; exact_mod_cast ha' % m)
    L.append('  have ha0 : 0 ≤ a.zval := by rw [L4.zval_eq]; omega')
    if k == 'sub':
        L.append('  have hb\' : b.zval < %d := by rw [L4.zval_eq]; exact_mod_cast hb' % m)
        L.append('  have hb0 : 0 ≤ b.zval := by rw [L4.zval_eq]; omega')
    L.append('  obtain ⟨hlt, kk, hk⟩ := condadd _ %d _ _ _ _ hD hS c_%s c_%s hk0 hk1 (by linarith only [ha\', ha0%s]) (by linarith only [ha\', ha0%s]) (by norm_num)' % (m, b, c, *((", hb', hb0",) * 2 if k == 'sub' else ('', ''))))
    if k == 'sub':
        L.append('  refine hP _ (reduced_of %d _ _ %d (a.zval - b.zval + %d) (by norm_num) ?_ hlt ⟨1 - kk, ?_⟩)' % (m, m, m))
        L.append('  · rw [L4.zval_eq, L4.zval_eq]; omega')
    else:
        L.append('  refine hP _ (reduced_of %d _ _ %d (0 - a.zval + %d) (by norm_num) ?_ hlt ⟨1 - kk, ?_⟩)' % (m, m, m))
        L.append('  · rw [L4.zval_eq]; omega')
    L.append('  · rw [hk]; ring')
    return L
if __name__ == '__main__': main()
