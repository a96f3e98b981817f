#!/usr/bin/env python3
"""Translate the straight-line `Double` and `Add` of crypto/core/curves/native/{k256,p256}/point.go into Lean, and write the
step-by-step representation lemmas.  Output: lean/Verif/Native/PointCode.lean."""
import re
REPO = '/repo/'
CURVES = [('K256', 'crypto/core/curves/native/k256/point.go', 'k256PointArithmetic'),
          ('P256', 'crypto/core/curves/native/p256/point.go', 'p256PointArithmetic')]

def func(lines, recv, name):
    pat = re.compile(r'^func \(k %s\) %s\(' % (recv, name))
    for i, l in enumerate(lines):
        if pat.match(l):
            j = i
            while lines[j] != '}':
                j += 1
            return i + 1, j + 1, lines[i + 1:j]
    raise SystemExit(name)

def operand(s):
    s = s.strip().lstrip('&')
    m = re.match(r'^(arg1|arg2|arg)\.([XYZ])\.Value$', s)
    if m:
        return '%s.%s' % (m.group(1), m.group(2))
    if s in ('arg1.Params.B.Value', 'arg.Params.B.Value', 'b'):
        return 'b'
    assert re.match(r'^\w+$', s), s
    return 'v_' + s

def translate(body):
    steps = []
    outs = {}
    for l in body:
        l = l.strip()
        if not l or l.startswith('//') or l.startswith('var ') or l.startswith('f := '):
            continue
        if l == 'b := getP256PointParams().B.Value':
            continue
        m = re.match(r'^f\.(Mul|Add|Sub)\((.*), (.*), (.*)\)$', l)
        if m:
            steps.append((m.group(1).lower(), operand(m.group(2)), [operand(m.group(3)), operand(m.group(4))]))
            continue
        m = re.match(r'^f\.(Square|Neg)\((.*), (.*)\)$', l)
        if m:
            steps.append((m.group(1).lower(), operand(m.group(2)), [operand(m.group(3))]))
            continue
        m = re.match(r'^(e\d) := (arg\d)\.Z\.IsZero\(\)$', l)
        if m:
            steps.append(('iszero', 'v_' + m.group(1), ['%s.Z' % m.group(2)]))
            continue
        m = re.match(r'^f\.Selectznz\((.*), (.*), (.*), (e\d)\)$', l)
        if m:
            steps.append(('sel', operand(m.group(1)), [operand(m.group(2)), operand(m.group(3)), 'v_' + m.group(4)]))
            continue
        m = re.match(r'^out\.([XYZ])\.Value = (\w)$', l)
        if m:
            outs[m.group(1)] = 'v_' + m.group(2)
            continue
        raise SystemExit('untranslated: ' + l)
    return steps, outs

LEM = {'mul': 'C50_mul', 'add': 'C50_add', 'sub': 'C50_sub', 'square': 'C50_square', 'neg': 'C50_neg'}

def main():
    o = ['import Verif.Native.Scalars', '', '/-!', '# `Double` and `Add` of the native curves (generated by `tools/gopoint.py`)', '',
         'A line-by-line translation of the straight-line bodies; `b` is the stored curve coefficient and `A` the base-field',
         'arithmetic.  The lemmas follow the same lines.', '-/', '', 'set_option maxRecDepth 20000', 'set_option linter.unusedVariables false', '',
         'namespace Verif.Native', '',
         '/-- The coordinates of an `EllipticPoint` (crypto/core/curves/native/point.go:41-47), as stored limbs. -/',
         'structure EP where', '  X : L4', '  Y : L4', '  Z : L4', 'deriving DecidableEq', '']
    for name, path, recv in CURVES:
        lines = open(REPO + path).read().split('\n')
        for fn in ('Double', 'Add'):
            a, b, body = func(lines, recv, fn)
            steps, outs = translate(body)
            args = ['arg'] if fn == 'Double' else ['arg1', 'arg2']
            o.append('/-- `%s.%s` (%s:%d-%d). -/' % (recv, fn, path, a, b))
            o.append('def %s.%s (A : Arith) (b : L4) (%s : EP) : EP :=' % (name, fn.lower(), ' '.join(args)))
            for op, d, xs in steps:
                if op == 'iszero':
                    o.append('  let %s := isZero %s' % (d, xs[0]))
                elif op == 'sel':
                    o.append('  let %s := selectznz (uint1 %s) %s %s' % (d, xs[2], xs[0], xs[1]))
                else:
                    o.append('  let %s := A.%s %s' % (d, op, ' '.join(xs)))
            o.append('  ⟨%s, %s, %s⟩' % (outs['X'], outs['Y'], outs['Z']))
            o.append('')
    # lemmas
    o += ['section', 'variable {A : Arith} {P : Params} {p : Nat} (L : Lawful A P p)', 'include L', '']
    for name, path, recv in CURVES:
        lines = open(REPO + path).read().split('\n')
        for fn in ('Double', 'Add'):
            a, b, body = func(lines, recv, fn)
            steps, outs = translate(body)
            arith = [s for s in steps if s[0] not in ('iszero', 'sel')]
            args = ['arg'] if fn == 'Double' else ['arg1', 'arg2']
            vs = []
            hyps = ['(hb : Rep p b vb)']
            for g in args:
                for c in 'XYZ':
                    v = c.lower() + g[3:]
                    vs.append(v)
                    hyps.append('(h%s : Rep p %s.%s %s)' % (v, g, c, v))
            # symbolic values
            val = {'b': 'vb'}
            hyp = {'b': 'hb'}
            for g in args:
                for c in 'XYZ':
                    val['%s.%s' % (g, c)] = c.lower() + g[3:]
                    hyp['%s.%s' % (g, c)] = 'h' + c.lower() + g[3:]
            cnt = {}
            proof = []
            lets = []
            for op, d, xs in arith:
                n = cnt.get(d, 0)
                cnt[d] = n + 1
                w = d[2:] + ('' if n == 0 else "'" * n)
                lets.append('  have h_%s := %s L %s' % (w, LEM[op], ' '.join(hyp[x] for x in xs)))
                ev = {'mul': '(%s * %s)', 'add': '(%s + %s)', 'sub': '(%s - %s)', 'square': '(%s * %s)', 'neg': '(-%s)'}[op]
                e = ev % tuple([val[x] for x in (xs if op != 'square' else xs * 2)])
                val[d] = e
                hyp[d] = 'h_' + w
            X, Y, Z = (val['v_' + c] for c in 'xyz')
            suffix = 'double' if fn == 'Double' else 'add'
            if fn == 'Double':
                concl = '(%s.double A b arg)' % name
                o.append('theorem %s.double_code {b : L4} {arg : EP} {vb %s : ZMod p} %s :' % (name, ' '.join(vs), ' '.join(hyps)))
                o.append('    Rep p %s.X %s ∧' % (concl, X))
                o.append('    Rep p %s.Y %s ∧' % (concl, Y))
                o.append('    Rep p %s.Z %s := by' % (concl, Z))
                o += lets
                o.append('  exact ⟨%s, %s, %s⟩' % (hyp['v_x'], hyp['v_y'], hyp['v_z']))
                o.append('')
            else:
                concl = '(%s.add A b arg1 arg2)' % name
                o.append('theorem %s.add_code {b : L4} {arg1 arg2 : EP} {vb %s : ZMod p} %s (n1 : z1 ≠ 0) (n2 : z2 ≠ 0) :' % (name, ' '.join(vs), ' '.join(hyps)))
                o.append('    Rep p %s.X %s ∧' % (concl, X))
                o.append('    Rep p %s.Y %s ∧' % (concl, Y))
                o.append('    Rep p %s.Z %s := by' % (concl, Z))
                o += lets
                o.append('  have f1 : isZero arg1.Z = 0 := by rw [(C50_equal L hz1 hz1).2.2.1, if_neg n1]')
                o.append('  have f2 : isZero arg2.Z = 0 := by rw [(C50_equal L hz2 hz2).2.2.1, if_neg n2]')
                o.append('  simp only [%s.add, f1, f2, uint1_zero, selectznz_zero]' % name)
                o.append('  exact ⟨%s, %s, %s⟩' % (hyp['v_x'], hyp['v_y'], hyp['v_z']))
                o.append('')
                o.append('theorem %s.add_left {b : L4} {arg1 arg2 : EP} {z1 z2 : ZMod p} (hz1 : Rep p arg1.Z z1) (hz2 : Rep p arg2.Z z2)' % name)
                o.append('    (n1 : z1 = 0) (n2 : z2 ≠ 0) : %s.add A b arg1 arg2 = arg2 := by' % name)
                o.append('  have f1 : isZero arg1.Z = 1 := by rw [(C50_equal L hz1 hz1).2.2.1, if_pos n1]')
                o.append('  have f2 : isZero arg2.Z = 0 := by rw [(C50_equal L hz2 hz2).2.2.1, if_neg n2]')
                o.append('  simp only [%s.add, f1, f2, uint1_zero, uint1_one, selectznz_zero, selectznz_one]' % name)
                o.append('')
                o.append('theorem %s.add_right {b : L4} {arg1 arg2 : EP} {z2 : ZMod p} (hz2 : Rep p arg2.Z z2)' % name)
                o.append('    (n2 : z2 = 0) : %s.add A b arg1 arg2 = arg1 := by' % name)
                o.append('  have f2 : isZero arg2.Z = 1 := by rw [(C50_equal L hz2 hz2).2.2.1, if_pos n2]')
                o.append('  simp only [%s.add, f2, uint1_one, selectznz_one]' % name)
                o.append('')
    o += ['end', '', 'end Verif.Native', '']
    open('/verif/lean/Verif/Native/PointCode.lean', 'w').write('\n'.join(o))

main()
