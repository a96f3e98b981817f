#!/usr/bin/env python3
"""Translate the straight-line word programs of crypto/core/curves/native/bls12381/{fp,fq}.go into Lean:
the schoolbook product, the square and the Montgomery reduction.  Writes lean/Verif/Bls381/{Fp,Fq}Wide.lean."""
import re
W = 1 << 64
SRC = 'crypto/core/curves/native/bls12381/'
def func(lines, name):
    for i, l in enumerate(lines):
        if re.match(r'^func \(f \*?\w+\) %s\(' % name, l):
            j = i
            while lines[j] != '}': j += 1
            return i, j
    raise SystemExit(name)
class Prog:
    def __init__(s, mod, inv):
        s.mod, s.inv = mod, inv
        s.cur = {}; s.cnt = {}; s.ins = []
    def new(s, v):
        v = re.sub(r'[\[\]]', '', v)
        s.cnt[v] = s.cnt.get(v, 0) + 1
        return v if s.cnt[v] == 1 else '%s_%d' % (v, s.cnt[v])
    def assign(s, v):
        if v == '_': return s.new('drop')
        n = s.new(v); s.cur[v] = n; return n
    def arg(s, e):
        e = e.strip()
        if re.match(r'^\d+$', e): return e
        if e == s.inv: return 'inv'
        m = re.match(r'^%s\[(\d+)\]$' % s.mod, e)
        if m: return 'modulus.l' + m.group(1)
        m = re.match(r'^(a|arg|arg1|arg2)\[(\d+)\]$', e)
        if m: return {'a': 'a', 'arg': 'a', 'arg1': 'a', 'arg2': 'b'}[m.group(1)] + '.l' + m.group(2)
        if e in s.cur: return s.cur[e]
        m = re.match(r'^r\[(\d+)\]$', e)
        if m and s.inparam: return 'r.l' + m.group(1)
        raise SystemExit('arg ' + e)
    def run(s, body, inparam):
        s.inparam = inparam; s.lines = []
        for no, l in body:
            l = re.sub(r'//.*', '', l).strip()
            if not l or l.startswith('var ') or l.startswith('return') or l.startswith('f.montReduce') or l.startswith('f.Sub('): continue
            m = re.match(r'^(\S+), (\S+) = (mac|adc)\((.*)\)$', l)
            if m:
                ar = [s.arg(x) for x in m.group(4).split(',')]
                o = [s.assign(m.group(1)), s.assign(m.group(2))]
                s.ins.append((m.group(3), o, ar, m.group(1))); continue
            m = re.match(r'^k = (\S+) \* (\S+)$', l)
            if m:
                ar = [s.arg(m.group(1)), s.arg(m.group(2))]
                s.ins.append(('mullo', [s.assign('k')], ar, 'k')); continue
            m = re.match(r'^(\S+) = (\S+) >> 63$', l)
            if m:
                ar = [s.arg(m.group(2))]; s.ins.append(('shr63', [s.assign(m.group(1))], ar, m.group(1))); continue
            m = re.match(r'^(\S+) = \((\S+) << 1\) \| (\S+)>>63$', l)
            if m:
                ar = [s.arg(m.group(2)), s.arg(m.group(3))]; s.ins.append(('shl1', [s.assign(m.group(1))], ar, m.group(1))); continue
            m = re.match(r'^(\S+) = (\S+) << 1$', l)
            if m:
                ar = [s.arg(m.group(2))]; s.ins.append(("shl1'", [s.assign(m.group(1))], ar, m.group(1))); continue
            raise SystemExit('untranslated ' + l)
        return s
    def code(s):
        op = {'mac': 'Mac', 'adc': 'Adc', 'mullo': 'MulLo', 'shr63': 'Shr63', 'shl1': 'Shl1', "shl1'": "Shl1'"}
        return ['  %s %s fun %s =>' % (op[i[0]], ' '.join(i[2]), ' '.join(i[1])) for i in s.ins]
WS = '18446744073709551616'
def w(k): return '%s ^ %d' % (WS, k)
def sumz(vs): return ' + '.join(('z %s' % v) if i == 0 else '%s * z %s' % (w(i), v) for i, v in enumerate(vs))
def idx(v): return int(re.search(r'(\d+)', v).group(1))
def proof_lines(p, carries_bit):
    L = []; bits = set(['0'])
    for op, o, ar, d in p.ins:
        if op == 'mac': L.append('refine wp_mac P _ _ _ _ _ fun %s %s h_%s => ?_' % (o[0], o[1], o[0]))
        elif op == 'adc':
            side = next(i for i, x in enumerate(ar) if x in bits)
            pf = '(by rw [z0]; norm_num)' if ar[side] == '0' else 'c_' + ar[side]
            pf = ['.inl %s', '.inr (.inl %s)', '.inr (.inr %s)'][side] % pf
            L.append('refine wp_adc P _ _ _ _ (%s) fun %s %s h_%s c_%s => ?_' % (pf, o[0], o[1], o[0], o[1])); bits.add(o[1])
        elif op == 'mullo': L.append('refine wp_mulLo P _ _ _ fun %s ov_%s h_%s => ?_' % (o[0], o[0], o[0]))
        elif op == 'shr63':
            L.append('refine wp_shr63 P _ _ fun %s h_%s c_%s => ?_' % (o[0], o[0], o[0])); bits.add(o[0])
        elif op == 'shl1': L.append('refine wp_shl1 P _ _ _ fun %s h_%s => ?_' % (o[0], o[0]))
        elif op == "shl1'": L.append("refine wp_shl1' P _ _ fun %s h_%s => ?_" % (o[0], o[0]))
    return L
def gen(name, file, n, modname, invname, mods, inv, consts_cite):
    lines = open('/repo/' + SRC + file).read().split('\n')
    m = sum(v << (64 * i) for i, v in enumerate(mods))
    assert (1 + inv * mods[0]) % W == 0
    T, D = 'L%d' % n, 'L%d' % (2 * n)
    out = ['import Verif.Bls381.Limbs', '', '/-!', '# Products and Montgomery reduction of `%s%s` (generated by `tools/gobls.py`)' % (SRC, file), '',
      'Translated statement by statement; the products end where the Go code calls `montReduce`.', '-/', '',
      'set_option linter.unusedVariables false', 'set_option maxRecDepth 100000', 'set_option maxHeartbeats 4000000', '',
      'namespace Verif.Bls381.%s' % name, 'open Verif.Native', '']
    out += ['/-- `%s` (%s%s:%s). -/' % (modname, SRC, file, consts_cite[0]),
      'def modulus : %s := ⟨%s⟩' % (T, ', '.join('0x%x' % v for v in mods)), '',
      '/-- `%s` (%s%s:%s). -/' % (invname, SRC, file, consts_cite[1]), 'def inv : UInt64 := 0x%x' % inv, '']
    # products
    for go, lean in (('Mul', 'mulWide'), ('Square', 'squareWide')):
        i, j = func(lines, go)
        p = Prog(modname, invname).run([(k + 1, lines[k]) for k in range(i + 1, j)], False)
        args = 'a b' if go == 'Mul' else 'a'
        end = max(k for k in range(i, j) if 'montReduce' in lines[k])
        outv = [p.cur['r[%d]' % k] for k in range(2 * n)]
        out += ['/-- The double-width result of `%s` (%s%s:%d-%d). -/' % (go, SRC, file, i + 1, end),
          'def %s (%s : %s) : %s :=' % (lean, args, T, D)] + p.code() + ['  %s.mk %s' % (D, ' '.join(outv)), '']
        X = 'a.zval * b.zval' if go == 'Mul' else 'a.zval * a.zval'
        L = ['theorem %s_spec (%s : %s) : (%s %s).zval = %s := by' % (lean, args, T, lean, args, X),
          '  suffices H : ∀ P : %s → Prop, (∀ r : %s, r.zval = %s → P r) → P (%s %s) from H _ (fun _ h => h)' % (D, D, X, lean, args),
          '  intro P hP', '  have z0 : z 0 = 0 := rfl', '  unfold ' + lean]
        L += ['  ' + x for x in proof_lines(p, False)]
        L += ['  refine hP _ ?_']
        lc = []
        dropped = [o[1] for op, o, ar, d in p.ins if op == 'adc' and o[1].startswith('drop')]
        shift = next((q for q, x in enumerate(p.ins) if x[0] == 'shr63'), 0)
        for q, (op, o, ar, d) in enumerate(p.ins):
            f = 2 if q < shift else 1  # the off-diagonal products are doubled by the shift
            if op == 'shr63':
                lc.append('%s * e_%s' % (w(idx(d)), o[0]))
            else:
                lc.append('%d * %s * h_%s' % (f, w(idx(d)), o[0]))
                if '0' in ar:
                    lc.append('%d * (%s) * z0' % (f * ar.count('0'), w(idx(d))))
        for op, o, ar, d in p.ins:
            if op == 'shr63': L.append('  have e_%s : z %s = z (%s >>> 63) := by rw [h_%s]' % (o[0], o[0], ar[0], o[0]))
        if dropped:
            # the last carry is zero because the value fits
            L.append('  have hI : %s + %s * z %s = %s := by' % (sumz(outv), w(2 * n), dropped[0], X))
            L.append('    unfold %s.zval' % T)
            L.append('    linear_combination ' + ' + '.join(lc))
            L.append('  have hlt : %s < %s := by' % (X, w(2 * n)))
            L.append('    have h1 := %s.zval_lt a' % T)
            L.append('    have h0 := %s.zval_nonneg a' % T)
            L.append('    calc %s < %s * %s := mul_lt_mul\'\' h1 h1 h0 h0' % (X, w(n), w(n)))
            L.append('      _ = %s := by norm_num' % w(2 * n))
            for v in outv: L.append('  have n_%s := z_nonneg %s' % (v, v))
            L.append('  have hc0 := z_nonneg %s' % dropped[0])
            L.append('  have hc : z %s = 0 := by' % dropped[0])
            L.append('    rw [← hI] at hlt')
            L.append('    omega')
            L.append('  rw [hc] at hI')
            L.append('  unfold %s.zval' % D)
            L.append('  dsimp only')
            L.append('  linear_combination hI')
        else:
            L.append('  unfold %s.zval %s.zval' % (D, T))
            L.append('  dsimp only')
            L.append('  linear_combination ' + ' + '.join(lc))
        out += L + ['']
    # reduction
    i, j = func(lines, 'montReduce')
    p = Prog(modname, invname)
    p.run([(k + 1, lines[k]) for k in range(i + 1, j)], True)
    outv = [p.cur['rr[%d]' % k] for k in range(n)]
    out += ['/-- `montReduce` up to the final `Sub` (%s%s:%d-%d). -/' % (SRC, file, i + 1, j),
      'def montWords (r : %s) : %s :=' % (D, T)] + p.code() + ['  %s.mk %s' % (T, ' '.join(outv)), '']
    L = ['/-- The words before the final subtraction: `t·2^%d = r + u·m`, below `2m`. -/' % (64 * n),
      'theorem montWords_spec (r : %s) (h : r.zval < %s * %d) :' % (D, w(n), m),
      '    (montWords r).zval < 2 * %d ∧ ∃ U : Int, (montWords r).zval * %s = r.zval + U * %d := by' % (m, w(n), m),
      '  suffices H : ∀ P : %s → Prop, (∀ t : %s, (t.zval < 2 * %d ∧ ∃ U : Int, t.zval * %s = r.zval + U * %d) → P t) →' % (T, T, m, w(n), m),
      '      P (montWords r) from H _ (fun _ h => h)',
      '  intro P hP', '  have z0 : z 0 = 0 := rfl']
    for k, v in enumerate(mods): L.append('  have m%d : z modulus.l%d = %d := rfl' % (k, k, v))
    L.append('  have hinv : (%s : Int) ∣ 1 + z inv * z modulus.l0 := by' % WS)
    L.append('    have e : z inv = %d := rfl' % inv)
    L.append('    rw [e, m0]; norm_num')
    L.append('  unfold montWords')
    L += ['  ' + x for x in proof_lines(p, True)]
    row = -1; ks = []; lc = []; kcur = None; lastdrop = None
    for q, (op, o, ar, d) in enumerate(p.ins):
        if op == 'mullo':
            row += 1; col = 0; ks.append(o[0]); continue
        pos = row + col; col += 1
        lc.append('%s * h_%s' % (w(pos), o[0]))
        if '0' in ar: lc.append('%d * (%s) * z0' % (ar.count('0'), w(pos)))
        for x in ar:
            mm = re.match(r'modulus\.l(\d+)$', x)
            if mm: lc.append('%s * z %s * m%s' % (w(pos), ks[-1], mm.group(1)))
        if o[0].startswith('drop'):
            L.append('  have e_%s : z %s = 0 := drop_zero hinv h_%s z0 h_%s' % (o[0], o[0], ks[-1], o[0]))
            lc.append('-(%s) * e_%s' % (w(pos), o[0]))
        else:
            v = d
            exp = n + idx(v) if v.startswith('rr') else idx(v)
            assert exp == pos, (d, exp, pos)
        if o[1].startswith('drop'): lastdrop = o[1]
    L.append('  refine hP _ ?_')
    U = sumz(ks)
    L.append('  have hI : (%s + %s * z %s) * %s = r.zval + (%s) * %d := by' % (sumz(outv), w(n), lastdrop, w(n), U, m))
    L.append('    unfold %s.zval' % D)
    L.append('    linear_combination ' + ' + '.join(lc))
    L.append('  have hU : %s ≤ %s - 1 := by' % (U, w(n)))
    for k in ks: L.append('    have b_%s := z_le %s' % (k, k))
    L.append('    linarith only [%s]' % ', '.join('b_' + k for k in ks))
    L.append('  have hT : %s + %s * z %s < 2 * %d := by' % (sumz(outv), w(n), lastdrop, m))
    L.append('    linarith only [hI, h, hU]')
    L.append('  have hd : z %s = 0 := by' % lastdrop)
    L.append('    have n_d := z_nonneg %s' % lastdrop)
    for v in outv: L.append('    have n_%s := z_nonneg %s' % (v, v))
    L.append('    omega')
    L.append('  rw [hd] at hI hT')
    L.append('  refine ⟨?_, %s, ?_⟩' % U)
    L.append('  · unfold %s.zval; dsimp only; linarith only [hT]' % T)
    L.append('  · rw [← hI]; unfold %s.zval; dsimp only; ring' % T)
    out += L + ['']
    out += ['end Verif.Bls381.%s' % name, '']
    open('/verif/lean/Verif/Bls381/%sWide.lean' % name, 'w').write('\n'.join(out))
gen('Fp', 'fp.go', 6, 'modulus', 'inv', [0xb9feffffffffaaab,0x1eabfffeb153ffff,0x6730d2a0f6b0f624,0x64774b84f38512bf,0x4b1ba7b6434bacd7,0x1a0111ea397fe69a], 0x89f3fffcfffcfffd, ('17-24', '65'))
gen('Fq', 'fq.go', 4, 'fqModulus', 'qInv', [0xffffffff00000001, 0x53bda402fffe5bfe, 0x3339d80809a1d805, 0x73eda753299d7d48], 0xfffffffeffffffff, ('28', '22'))
