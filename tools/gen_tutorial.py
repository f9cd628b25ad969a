#!/usr/bin/env python3
"""Translate the reactions of tutorials/multicomponentFluid/shearlayer_DLB/constant/reactionsYao to Lean."""
import re
from gen_mechanisms import consts, sdec, dec, write, OUT

DIR = 'tutorials/multicomponentFluid/shearlayer_DLB/constant'
ROOT = '/repo/'
NUM = r'[-+]?[0-9.]+(?:[eE][-+]?[0-9]+)?'


def parse(text):
    tok = [(m.group(0), text.count('\n', 0, m.start()) + 1) for m in re.finditer(r'"[^"]*"|[{}();]|[^\s{}();"]+', text)]
    pos = 0

    def dictionary():
        nonlocal pos
        d = {}
        while pos < len(tok) and tok[pos][0] != '}':
            k, line = tok[pos]
            pos += 1
            if tok[pos][0] == '{':
                pos += 1
                v = dictionary()
                assert tok[pos][0] == '}'
                pos += 1
            else:
                v = []
                while tok[pos][0] != ';':
                    v.append(tok[pos][0])
                    pos += 1
                pos += 1
            assert k not in d, k
            d[k] = (v, line)
        return d
    d = dictionary()
    assert pos == len(tok)
    return d


def main():
    names = consts('yao')['names']
    # the tutorial uses the species and thermodynamic data of utilities/mechanisms/yao
    for f in ('species.foam', 'thermo.foam'):
        assert open(ROOT + DIR + '/foam/' + f).read() == open(ROOT + 'utilities/mechanisms/yao/foam/' + f).read()
    top = parse(open(ROOT + DIR + '/reactionsYao').read())
    assert list(top) == ['reactions']
    rows = []
    idx = names.index

    def side(s):
        out = []
        for t in s.split(' + '):
            t = t.strip()
            m = re.fullmatch(r'([2-9])\s*(\S+)', t)
            out += [m.group(2)] * int(m.group(1)) if m else [t]
        return [idx(x) for x in out]

    def rate(d):
        assert set(d) >= {'A', 'beta', 'Ta'}
        v = [d[k][0] for k in ('A', 'beta', 'Ta')]
        assert all(len(x) == 1 and re.fullmatch(NUM, x[0]) for x in v)
        return '⟨%s⟩' % ', '.join(sdec(x[0]) for x in v)

    def eff(d):
        c = d['coeffs'][0]
        n = int(c[0])
        assert c[1] == '(' and c[-1] == ')' and len(c) == 3 + 4 * n and n == len(names)
        out = []
        for i in range(n):
            a = c[2 + 4 * i:6 + 4 * i]
            assert a[0] == '(' and a[3] == ')'
            neg, m, e = dec(a[2])
            assert not neg
            out.append('(%d, %d, %d)' % (idx(a[1]), m, e))
        return '[%s]' % ', '.join(out)

    for i, (name, (d, line)) in enumerate(top['reactions'][0].items()):
        assert name == 'un-named-reaction-%d' % i
        ty = d['type'][0][0]
        eq = d['reaction'][0][0].strip('"')
        l, r = eq.split(' = ')
        m = re.fullmatch(r'(reversible|irreversible)(ArrheniusReaction|ThirdBodyArrhenius|ArrheniusLindemannFallOffReaction|ArrheniusTroeFallOffReaction)', ty)
        k = m.group(2)
        if k == 'ArrheniusReaction':
            assert set(d) == {'type', 'reaction', 'A', 'beta', 'Ta'}
            law = '.arrhenius %s' % rate(d)
        elif k == 'ThirdBodyArrhenius':
            assert set(d) == {'type', 'reaction', 'A', 'beta', 'Ta', 'coeffs'}
            law = '.thirdBody %s %s' % (rate(d), eff(d))
        else:
            assert set(d) == {'type', 'reaction', 'k0', 'kInf', 'F', 'thirdBodyEfficiencies'}
            F = d['F'][0]
            troe = 'none'
            if 'Troe' in k:
                assert set(F) == {'alpha', 'Tsss', 'Ts', 'Tss'}
                troe = '(some ⟨%s⟩)' % ', '.join(sdec(F[x][0][0]) for x in ('alpha', 'Tsss', 'Ts', 'Tss'))
            else:
                assert not F
            law = '.falloff %s %s %s %s' % (rate(d['k0'][0]), rate(d['kInf'][0]), troe, eff(d['thirdBodyEfficiencies'][0]))
        rows.append('/- reactionsYao:%d  %s -/\n  ⟨%s, %s, %s, %s⟩' % (
            line, eq, side(l), side(r), 'true' if m.group(1) == 'reversible' else 'false', law))
    out = '''/- Generated by tools/gen_tutorial.py from %s/reactionsYao. Do not edit. -/
import Verif.Spec.FoamReaction
set_option autoImplicit false

namespace DLB.Mech.Yao
open DLB

/-- The reactions of %s/reactionsYao, in its order. Species are numbered as in utilities/mechanisms/yao/lib/src/mechanism.h. -/
def tutorial : List FoamReaction := [
  %s]

end DLB.Mech.Yao
''' % (DIR, DIR, ',\n  '.join(rows))
    write('%s/YaoTutorial.lean' % OUT, out)


if __name__ == '__main__':
    main()
