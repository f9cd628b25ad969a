#!/usr/bin/env python3
"""Translate the shipped pyJac mechanism sources into Lean.

Reads /repo/utilities/mechanisms/<mech>/{lib/src/*.c,lib/src/mechanism.h,chem.cti,foam/*}
and writes lean/Verif/Mech/<Mech>*.lean.  The translation is purely syntactic: every C statement
becomes one `CStmt`, in order; anything the parser does not know is an error.
Run from /verif:  python3 tools/gen_mechanisms.py [mechanism directory]
"""
import os
import re
import sys

BASE = sys.argv[1] if len(sys.argv) > 1 else '/repo/utilities/mechanisms'
OUT = sys.argv[2] if len(sys.argv) > 2 else 'lean/Verif/Mech'
MECHS = [('drm19', 'Drm19'), ('gri30', 'Gri30'), ('yao', 'Yao')]
CITE = 'utilities/mechanisms'

VARS = {'T': 'T', 'temp': 'T', 'pres': 'pres', 'logT': 'logT', 'kf': 'kf', 'Kc': 'Kc', 'm': 'm', 'thd': 'thd',
        'k0': 'k0', 'kinf': 'kinf', 'Pr': 'Pr', 'logFcent': 'logFcent', 'A': 'A', 'B': 'B',
        'dy_N': 'dyN', 'y_N': 'yN', 'Y_N': 'yN', 'X_N': 'xN', 'mw_avg': 'mwAvg', 'rho': 'rho',
        'cp_avg': 'cpAvg', 'conc_temp': 'concTemp', 'j_temp': 'jTemp', 'pres_mod_temp': 'presModTemp', 'kr': 'kr',
        'Fcent': 'Fcent', 'lnF_AB': 'lnFAB', 'rho_inv': 'rhoInv', 'working_temp': 'workTemp',
        'J_nplusone': 'jN'}
ARRS = {'C': 'C', 'conc': 'C', 'fwd_rates': 'fwd', 'fwd_rxn_rates': 'fwd', 'rev_rates': 'rev',
        'rev_rxn_rates': 'rev', 'pres_mod': 'presMod', 'sp_rates': 'spRates', 'X': 'X', 'Y': 'Y', 'y': 'y',
        'dy': 'dy', 'cp': 'cp', 'h': 'h', 'temp': 'temp', 'y_specs': 'y', 'dBdT': 'dBdT', 'jac': 'jac',
        'spec_rates': 'spRates', 'cv': 'cp', 'u': 'h', 'A': 'jac', 'Vm': 'y', 'w': 'dy'}
FUNS = {'exp': ('exp', 1), 'log': ('log', 1), 'log10': ('log10', 1), 'pow': ('pow', 2), 'fmax': ('fmax', 2)}

TOK = re.compile(r'\s*(?:(\d+\.?\d*(?:[eE][+-]?\d+)?)|([A-Za-z_]\w*)|(\+=|-=|\*=|/=|<=|[-+*/()\[\]{};,=<>&]))')


def tokenize(s):
    out, i = [], 0
    s = s.rstrip()
    while i < len(s):
        m = TOK.match(s, i)
        if not m:
            raise ValueError('token: ' + s[i:i + 40])
        if m.group(1):
            out.append(('n', m.group(1)))
        elif m.group(2):
            out.append(('i', m.group(2)))
        else:
            out.append(('p', m.group(3)))
        i = m.end()
    return out


def literal(s):
    m = re.fullmatch(r'(\d+)(?:\.(\d*))?(?:[eE]([+-]?\d+))?', s)
    ip, fp, ex = m.group(1), m.group(2) or '', int(m.group(3) or 0)
    mant, e = int(ip + fp), len(fp) - ex
    if e < 0:
        mant, e = mant * 10 ** (-e), 0
    if mant == 0:
        e = 0
    while e > 0 and mant % 10 == 0:
        mant //= 10
        e -= 1
    return ('num', mant, e)


class P:
    def __init__(self, toks):
        self.t, self.i = toks, 0

    def peek(self, k=0):
        return self.t[self.i + k] if self.i + k < len(self.t) else ('e', '')

    def eat(self, v=None):
        x = self.peek()
        if v is not None and x[1] != v:
            raise ValueError('expected %s got %s at %s' % (v, x, self.t[max(0, self.i - 5):self.i + 5]))
        self.i += 1
        return x

    def expr(self):
        a = self.term()
        while self.peek() in (('p', '+'), ('p', '-')):
            op = self.eat()[1]
            b = self.term()
            a = ('add' if op == '+' else 'sub', a, b)
        return a

    def term(self):
        a = self.unary()
        while self.peek() in (('p', '*'), ('p', '/')):
            op = self.eat()[1]
            b = self.unary()
            a = ('mul' if op == '*' else 'div', a, b)
        return a

    def unary(self):
        if self.peek() == ('p', '-'):
            self.eat()
            return ('neg', self.unary())
        if self.peek() == ('p', '+'):
            self.eat()
            return self.unary()
        if self.peek() == ('p', '*'):      # *pointer
            self.eat()
            n = self.eat()
            assert n[0] == 'i'
            return ('rd', ('var', VARS[n[1]]))
        return self.prim()

    def prim(self):
        k, v = self.eat()
        if k == 'n':
            return literal(v)
        if v == '(':
            e = self.expr()
            self.eat(')')
            return e
        assert k == 'i', (k, v)
        if self.peek() == ('p', '(') and v in FUNS:
            self.eat('(')
            f, n = FUNS[v]
            args = [self.expr()]
            while self.peek() == ('p', ','):
                self.eat()
                args.append(self.expr())
            self.eat(')')
            assert len(args) == n
            return (f,) + tuple(args)
        if self.peek() == ('p', '['):
            self.eat('[')
            ix = self.eat()
            self.eat(']')
            return ('rd', ('arr', ARRS[v], int(ix[1])))
        return ('rd', ('var', VARS[v]))

    def assign(self):
        """l = e;  l op= e;  (*p) = e;  double l = e;"""
        if self.peek() == ('i', 'double'):
            self.eat()
        e = self.unary()
        assert e[0] == 'rd', e
        l = e[1]
        op = self.eat()[1]
        r = self.expr()
        self.eat(';')
        if op == '=':
            return l, r
        return l, ({'+=': 'add', '-=': 'sub', '*=': 'mul', '/=': 'div'}[op], ('rd', l), r)

    def stmt(self):
        if self.peek() == ('i', 'if'):
            self.eat()
            self.eat('(')
            a = self.expr()
            self.eat('<=')
            b = self.expr()
            self.eat(')')
            xs = self.block()
            self.eat('else')
            ys = self.block()
            assert [l for l, _ in xs] == [l for l, _ in ys]
            # several assignments per branch become one conditional each; the condition reads none of the targets
            assert not any(reads(c, l) for l, _ in xs for c in (a, b))
            return [('ite', a, b, l, e1, e2) for (l, e1), (_, e2) in zip(xs, ys)]
        l, e = self.assign()
        return [('set', l, e)]

    def block(self):
        self.eat('{')
        out = []
        while self.peek() != ('p', '}'):
            out.append(self.assign())
        self.eat('}')
        return out

    def stmts(self):
        out = []
        while self.peek()[0] != 'e':
            # uninitialised declarations
            if self.peek() == ('i', 'double') and self.peek(2) == ('p', ';'):
                self.i += 3
                continue
            out += self.stmt()
        return out


def reads(e, l):
    return e[0] == 'rd' and e[1] == l or e[0] not in ('rd', 'num') and any(reads(x, l) for x in e[1:])


def loc(l):
    return '(.var .%s)' % l[1] if l[0] == 'var' else '(.arr .%s %d)' % (l[1], l[2])


def ex(e):
    if e[0] == 'num':
        return '(.num %d %d)' % (e[1], e[2])
    if e[0] == 'rd':
        return '(.rd %s)' % loc(e[1])
    return '(.%s %s)' % (e[0], ' '.join(ex(x) for x in e[1:]))


def st(s):
    if s[0] == 'set':
        return '.set %s %s' % (loc(s[1]), ex(s[2]))
    return '.ite %s %s %s %s %s' % (ex(s[1]), ex(s[2]), loc(s[3]), ex(s[4]), ex(s[5]))


def strip_comment(l):
    return re.sub(r'//.*', '', l)


def load(mech, f):
    return open(os.path.join(BASE, mech, f)).read().split('\n')


def body(lines, head, end):
    """(first, last) 0-based line indices of the body between the line starting with `head` and
    the first following line starting with `end`"""
    i = next(k for k, l in enumerate(lines) if l.lstrip().startswith(head) and not l.rstrip().endswith(';'))
    j = next(k for k in range(i + 1, len(lines)) if lines[k].startswith(end))
    return i + 1, j


def parse_range(lines, i, j):
    return P(tokenize('\n'.join(strip_comment(l) for l in lines[i:j]))).stmts()


def blocks(lines, i, j, pat):
    """split [i, j) at comment lines matching pat; returns (prologue range, [(lineno, range)])"""
    marks = [k for k in range(i, j) if re.match(pat, lines[k].strip())]
    if not marks:
        return (i, j), []
    ends = marks[1:] + [j]
    return (i, marks[0]), list(zip(marks, ends))


HEAD = '''/- Generated by tools/gen_mechanisms.py from %s. Do not edit. -/
import Verif.Model.CLang
set_option autoImplicit false

namespace DLB.Mech.%s
open DLB

'''


def deflist(name, stmts, cite):
    return '/-- %s -/\ndef %s : List CStmt := [\n  %s]\n' % (cite, name, ',\n  '.join(st(s) for s in stmts))


def defnone(name, cite):
    return '/-- %s -/\ndef %s : List CStmt := []\n' % (cite, name)


def write(path, txt):
    os.makedirs(os.path.dirname(path), exist_ok=True)
    old = open(path).read() if os.path.exists(path) else None
    if old != txt:
        open(path, 'w').write(txt)


def blockfile(mech, Name, src, head, end, pat, name, stem, tail_blank=False):
    lines = load(mech, 'lib/src/' + src)
    i, j = body(lines, head, end)
    (p0, p1), bl = blocks(lines, i, j, pat)
    cite = '%s/%s/lib/src/%s' % (CITE, mech, src)
    out = HEAD % (cite, Name)
    pro = parse_range(lines, p0, p1)
    out += deflist(stem + 'Start', pro, '%s:%d-%d' % (cite, p0 + 1, p1)) if pro else \
        defnone(stem + 'Start', '%s:%d-%d (declarations without initialiser only)' % (cite, p0 + 1, p1))
    out += '\n'
    names = []
    last = None
    for k, (a, b) in enumerate(bl):
        s0, s1 = a, b
        if tail_blank and k == len(bl) - 1:
            # statements after the first blank line belong to no reaction
            z = next(q for q in range(a, b) if lines[q].strip() == '')
            last = (z, b)
            s1 = z
        ss = parse_range(lines, s0, s1)
        n = '%s%d' % (stem, k)
        names.append(n)
        out += deflist(n, ss, '%s:%d-%d' % (cite, s0 + 1, s1)) if ss else \
            defnone(n, '%s:%d-%d' % (cite, s0 + 1, s1))
        out += '\n'
    if tail_blank:
        ss = parse_range(lines, *last)
        out += deflist(stem + 'Rest', ss, '%s:%d-%d' % (cite, last[0] + 1, last[1])) if ss else \
            defnone(stem + 'Rest', cite)
        out += '\n'
    out += '/-- The blocks of `%s`, one per reaction: %s:%d-%d -/\ndef %sBlocks : List (List CStmt) := [\n  %s]\n' % (
        head, cite, i + 1, j, stem, ', '.join(names))
    out += '\nend DLB.Mech.%s\n' % Name
    write('%s/%s%s.lean' % (OUT, Name, name), out)


def consts(mech):
    h = '\n'.join(load(mech, 'lib/src/mechanism.h'))
    g = lambda n: int(re.search(r'#define %s (\d+)' % n, h).group(1))
    names = re.findall(r'^(\d+)  (\S+)$', h, re.M)
    assert [int(a) for a, _ in names] == list(range(len(names)))
    return dict(nsp=g('NSP'), nn=g('NN'), fwd=g('FWD_RATES'), rev=g('REV_RATES'), pm=g('PRES_MOD_RATES'),
                names=[b for _, b in names])


def cti(mech):
    raw = load(mech, 'chem.cti')
    txt = '\n'.join(raw)
    ln = lambda pos: txt.count('\n', 0, pos) + 1
    order = re.search(r'species="""(.*?)"""', txt, re.S)
    elements = re.search(r'elements="(.*?)"', txt).group(1).split()
    species = order.group(1).split()
    atoms = {}
    sline = {}
    for m in re.finditer(r"species\(name=u?['\"](.*?)['\"],\s*atoms=['\"](.*?)['\"]", txt):
        atoms[m.group(1)] = {a.split(':')[0]: int(a.split(':')[1]) for a in m.group(2).split()}
        sline[m.group(1)] = ln(m.start())
    nasa = {}
    for m in re.finditer(r"species\(name=u?['\"](.*?)['\"].*?NASA\(\[(.*?)\],\s*\[(.*?)\]\),\s*NASA\(\[(.*?)\],\s*\[(.*?)\]\)", txt, re.S):
        f = lambda s: [x.strip() for x in s.replace('\n', ' ').split(',')]
        nasa[m.group(1)] = (f(m.group(2)), f(m.group(3)), f(m.group(4)), f(m.group(5)))
    rx = []
    for m in re.finditer(r"^(reaction|three_body_reaction|falloff_reaction)\(['\"](.*?)['\"](.*?)(?=^\S|\Z)", txt, re.M | re.S):
        kind, eq, rest = m.groups()
        rev = '<=>' in eq
        l, r = re.split(r'<=>|=>', eq)
        if kind == 'falloff_reaction':
            assert '(+ M)' in l and '(+ M)' in r, eq
            l, r = l.replace('(+ M)', ''), r.replace('(+ M)', '')

        def side(s):
            out = []
            for t in s.split(' + '):
                t = t.strip()
                w = t.split()
                n, sp = (int(w[0]), w[1]) if len(w) == 2 else (1, w[0])
                out += [sp] * n
            return out
        L, R = side(l), side(r)
        if kind == 'three_body_reaction':
            assert L.count('M') == 1 and R.count('M') == 1
            L.remove('M')
            R.remove('M')
        eff = re.search(r"efficiencies=['\"](.*?)['\"]", rest)
        effs = [(a.split(':')[0], a.split(':')[1]) for a in eff.group(1).split()] if eff else []
        rx.append(dict(kind=kind, L=L, R=R, rev=rev, eff=effs, line=ln(m.start()), eq=eq,
                       troe='Troe' in rest, dup='duplicate' in rest, rest=rest))
    return dict(elements=elements, species=species, atoms=atoms, sline=sline, rx=rx, nasa=nasa,
                oline=ln(order.start()))


def foam(mech):
    t = '\n'.join(load(mech, 'foam/species.foam'))
    sp = re.search(r'^species\s*(\d+)\s*\((.*?)\)\s*;', t, re.S | re.M)
    m = re.search(r'\nspecies\s*\n?(\d+)?\s*\n?\(\n?(.*?)\n\)', '\n' + t, re.S)
    names = m.group(2).split()
    th = '\n'.join(load(mech, 'foam/thermo.foam'))
    data = {}
    for m in re.finditer(r'^(\S+)\n\{(.*?)^\}', th, re.S | re.M):
        b = m.group(2)
        w = re.search(r'molWeight\s+([0-9.eE+-]+)', b).group(1)
        el = re.search(r'elements\s*\{(.*?)\}', b, re.S).group(1)
        els = {a: int(n) for a, n in re.findall(r'(\w+)\s+(\d+)', el)}
        lo = re.search(r'lowCpCoeffs\s*\(\s*(.*?)\s*\)', b, re.S).group(1).split()
        hi = re.search(r'highCpCoeffs\s*\(\s*(.*?)\s*\)', b, re.S).group(1).split()
        tl, thh, tc = (re.search(r'%s\s+([0-9.]+)' % k, b).group(1) for k in ('Tlow', 'Thigh', 'Tcommon'))
        data[m.group(1)] = (w, els, lo, hi, tl, thh, tc, th.count('\n', 0, m.start()) + 1)
    return names, data


def main():
    for mech, Name in MECHS:
        c = consts(mech)
        blockfile(mech, Name, 'rxn_rates.c', 'void eval_rxn_rates', '} // end', r'//rxn \d+', 'Rates', 'rate')
        blockfile(mech, Name, 'rxn_rates_pres_mod.c', 'void get_rxn_pres_mod', '} // end', r'// reaction \d+', 'PresMod', 'presMod')
        blockfile(mech, Name, 'spec_rates.c', 'void eval_spec_rates', '} // end', r'//rxn \d+', 'Spec', 'spec', True)
        # thermodynamics and conversions
        out = ''
        cu = load(mech, 'lib/src/chem_utils.c')
        cite = '%s/%s/lib/src/chem_utils.c' % (CITE, mech)
        out = HEAD % ('%s/%s/lib/src/{chem_utils,dydt,mass_mole,mechanism}.c' % (CITE, mech), Name)
        for fn, nm in (('void eval_conc (', 'evalConc'), ('void eval_h (', 'evalH'), ('void eval_cp (', 'evalCp')):
            i, j = body(cu, fn, '} // end')
            out += deflist(nm, parse_range(cu, i, j), '%s:%d-%d' % (cite, i, j + 1)) + '\n'
        mm = load(mech, 'lib/src/mass_mole.c')
        cite = '%s/%s/lib/src/mass_mole.c' % (CITE, mech)
        for fn, nm in (('void mole2mass', 'mole2mass'), ('void mass2mole', 'mass2mole')):
            i, j = body(mm, fn, '} // end')
            out += deflist(nm, parse_range(mm, i, j), '%s:%d-%d' % (cite, i, j + 1)) + '\n'
        i, j = body(mm, 'double getDensity', '} // end')
        r = next(k for k in range(i, j) if mm[k].strip().startswith('return'))
        out += deflist('getDensity', parse_range(mm, i, r), '%s:%d-%d' % (cite, i, r)) + '\n'
        e = P(tokenize(mm[r].strip()[len('return'):]))
        q = e.expr()
        e.eat(';')
        out += '/-- The returned expression, %s:%d -/\ndef getDensityResult : CExpr := %s\n\n' % (cite, r + 1, ex(q))
        # masks
        mc = load(mech, 'lib/src/mechanism.c')
        cite = '%s/%s/lib/src/mechanism.c' % (CITE, mech)
        for fn, nm in (('void apply_mask', 'applyMask'), ('void apply_reverse_mask', 'applyReverseMask')):
            i = next(k for k, l in enumerate(mc) if l.strip().startswith(fn))
            j = next(k for k in range(i, len(mc)) if mc[k].strip() == '}')
            assert mc[i + 1].strip() == 'double temp [NSP];'
            assert mc[i + 2].strip() == 'memcpy(temp, y_specs, NSP * sizeof(double));'
            out += deflist(nm, parse_range(mc, i + 3, j), '%s:%d-%d (after the memcpy to temp)' % (cite, i + 4, j)) + '\n'
        # dydt, constant pressure
        dd = load(mech, 'lib/src/dydt.c')
        cite = '%s/%s/lib/src/dydt.c' % (CITE, mech)
        i, j = body(dd, 'void dydt', '} // end')
        txt = [strip_comment(l) for l in dd[i:j]]
        joined = '\n'.join(txt)
        want = ['double conc[%d];' % c['nsp'], 'double y_N;', 'double mw_avg;', 'double rho;',
                'eval_conc (y[0], pres, &y[1], &y_N, &mw_avg, &rho, conc);',
                'double fwd_rates[%d];' % c['fwd'], 'double rev_rates[%d];' % c['rev'],
                'eval_rxn_rates (y[0], pres, conc, fwd_rates, rev_rates);',
                'double pres_mod[%d];' % c['pm'],
                'get_rxn_pres_mod (y[0], pres, conc, pres_mod);', 'double dy_N;',
                'eval_spec_rates (fwd_rates, rev_rates, pres_mod, &dy[1], &dy_N);',
                'double cp[%d];' % c['nsp'], 'eval_cp (y[0], cp);', None, 'double h[%d];' % c['nsp'],
                'eval_h(y[0], h);', None]
        norm = lambda s: re.sub(r'\s+', ' ', s).strip()
        pos = 0
        parts = []
        rest = norm(joined)
        seq = [w for w in want]
        k = 0
        while k < len(seq):
            if seq[k] is None:
                nxt = seq[k + 1] if k + 1 < len(seq) else None
                cut = rest.index(nxt) if nxt else len(rest)
                parts.append(rest[:cut])
                rest = rest[cut:]
            else:
                assert rest.startswith(seq[k]), (seq[k], rest[:100])
                rest = rest[len(seq[k]):].strip()
            k += 1
        ss = [P(tokenize(p)).stmts() for p in parts]
        out += deflist('dydtCpAvg', ss[0], 'the assignment of cp_avg, %s:%d-%d' % (cite, i, j + 1)) + '\n'
        out += deflist('dydtRest', ss[1], 'the assignments to dy, %s:%d-%d' % (cite, i, j + 1)) + '\n'
        out += 'end DLB.Mech.%s\n' % Name
        write('%s/%sThermo.lean' % (OUT, Name), out)
        data(mech, Name, c)
        nasafile(mech, Name, c)
        lawfile(mech, Name, c)


def q(s):
    return '"%s"' % s


def dec(s):
    """decimal string -> (sign, mantissa, exponent)"""
    neg = s.startswith('-')
    l = literal(s.lstrip('+-'))
    return neg, l[1], l[2]


def data(mech, Name, c):
    t = cti(mech)
    fn, fd = foam(mech)
    ix = {n: k for k, n in enumerate(c['names'])}
    nm = lambda s: s
    out = '''/- Generated by tools/gen_mechanisms.py from %s/%s/{chem.cti,lib/src/mechanism.h,foam/*}. Do not edit. -/
import Verif.Spec.Mechanism
set_option autoImplicit false

namespace DLB.Mech.%s
open DLB

''' % (CITE, mech, Name)
    out += '/-- Species in the order of %s/%s/lib/src/mechanism.h -/\ndef names : List String := [%s]\n\n' % (
        CITE, mech, ', '.join(q(n) for n in c['names']))
    out += '/-- Species in the order of %s/%s/chem.cti:%d -/\ndef ctiNames : List String := [%s]\n\n' % (
        CITE, mech, t['oline'], ', '.join(q(n) for n in t['species']))
    out += '/-- Species in the order of %s/%s/foam/species.foam -/\ndef foamNames : List String := [%s]\n\n' % (
        CITE, mech, ', '.join(q(n) for n in fn))
    els = t['elements']
    out += '/-- Elements, %s/%s/chem.cti -/\ndef elements : List String := [%s]\n\n' % (CITE, mech, ', '.join(q(e) for e in els))
    out += '/-- Number of atoms of each of the `elements` in each species (order of `names`),\n%s/%s/chem.cti:%d-%d -/\ndef atoms : List (List Nat) := [\n  %s]\n\n' % (
        CITE, mech, min(t['sline'].values()), max(t['sline'].values()),
        ',\n  '.join('[%s]' % ', '.join(str(t['atoms'][n].get(e, 0)) for e in els) for n in c['names']))
    up = lambda e: e
    feq = lambda d, e: next((v for k, v in d.items() if k.upper() == e.upper()), 0)
    out += '/-- Number of atoms of each of the `elements` in each species (order of `names`),\n%s/%s/foam/thermo.foam -/\ndef foamAtoms : List (List Nat) := [\n  %s]\n\n' % (
        CITE, mech, ',\n  '.join('[%s]' % ', '.join(str(feq(fd[n][1], e)) for e in els) for n in c['names']))
    out += '/-- molWeight of each species (order of `names`) as mantissa and decimal exponent,\n%s/%s/foam/thermo.foam -/\ndef foamWeights : List (Nat × Nat) := [\n  %s]\n\n' % (
        CITE, mech, ', '.join('(%d, %d)' % dec(fd[n][0])[1:] for n in c['names']))
    rs = []
    for k, r in enumerate(t['rx']):
        L = [ix[s] for s in r['L']]
        R = [ix[s] for s in r['R']]
        if r['kind'] == 'reaction':
            kind = '.elementary'
        else:
            ef = ', '.join('(%d, %d, %d)' % ((ix[a],) + dec(b)[1:]) for a, b in r['eff'])
            kind = '(.%s [%s])' % ('thirdBody' if r['kind'] == 'three_body_reaction' else 'falloff', ef)
        rs.append('/- chem.cti:%d  %s -/\n  ⟨%s, %s, %s, %s⟩' % (r['line'], r['eq'], L, R, 'true' if r['rev'] else 'false', kind))
    out += '/-- The reactions, %s/%s/chem.cti:%d-%d -/\ndef reactions : List Reaction := [\n  %s]\n\n' % (
        CITE, mech, t['rx'][0]['line'], t['rx'][-1]['line'], ',\n  '.join(rs))
    for k in ('nsp', 'fwd', 'rev', 'pm'):
        out += '/-- %s/%s/lib/src/mechanism.h -/\ndef %s : Nat := %d\n\n' % (
            CITE, mech, {'nsp': 'nsp', 'fwd': 'nFwd', 'rev': 'nRev', 'pm': 'nPresMod'}[k], c[k])
    out += 'end DLB.Mech.%s\n' % Name
    write('%s/%sData.lean' % (OUT, Name), out)


def sdec(x):
    n, m, e = dec(x)
    return '(%s%d, %d)' % ('-' if n and m else '', m, e)


def nasafile(mech, Name, c):
    """thermodynamic polynomials of chem.cti and foam/thermo.foam, in the order of mechanism.h"""
    t = cti(mech)
    fn, fd = foam(mech)
    out = '''/- Generated by tools/gen_mechanisms.py from %s/%s/{chem.cti,foam/thermo.foam}. Do not edit. -/
import Verif.Spec.Thermo
set_option autoImplicit false

namespace DLB.Mech.%s
open DLB

''' % (CITE, mech, Name)
    rows = []
    for n in c['names']:
        r1, c1, r2, c2 = t['nasa'][n]
        assert dec(r1[1]) == dec(r2[0]) and len(c1) == 7 and len(c2) == 7, n
        rows.append('/- chem.cti:%d  %s -/\n  ⟨%s, [%s], [%s]⟩' % (
            t['sline'][n], n, '(%d, %d)' % dec(r1[1])[1:], ', '.join(sdec(x) for x in c1), ', '.join(sdec(x) for x in c2)))
    out += '/-- The NASA polynomials of the species (order of `names`), %s/%s/chem.cti:%d-%d -/\ndef nasa : List Nasa := [\n  %s]\n\n' % (
        CITE, mech, min(t['sline'].values()), max(t['sline'].values()), ',\n  '.join(rows))
    rows = []
    for n in c['names']:
        w, els, lo, hi, tl, thh, tc, line = fd[n]
        assert len(lo) == 7 and len(hi) == 7 and float(tl) == 300 and float(thh) == 3000, n
        rows.append('/- thermo.foam:%d  %s -/\n  ⟨%s, [%s], [%s]⟩' % (
            line, n, '(%d, %d)' % dec(tc)[1:], ', '.join(sdec(x) for x in lo), ', '.join(sdec(x) for x in hi)))
    out += '/-- The JANAF polynomials of the species (order of `names`), %s/%s/foam/thermo.foam; Tlow is 300, Thigh 3000 for all of them. -/\ndef foamNasa : List Nasa := [\n  %s]\n\n' % (
        CITE, mech, ',\n  '.join(rows))
    out += 'end DLB.Mech.%s\n' % Name
    write('%s/%sNasa.lean' % (OUT, Name), out)


def lawfile(mech, Name, c):
    """rate coefficients of chem.cti"""
    t = cti(mech)
    num = r'[-+]?[0-9.]+(?:[eE][-+]?[0-9]+)?'
    units = re.search(r"^units\((.*)\)", '\n'.join(load(mech, 'chem.cti')), re.M).group(1)
    assert units == "length='cm', time='s', quantity='mol', act_energy='cal/mol'"
    out = '''/- Generated by tools/gen_mechanisms.py from %s/%s/chem.cti. Do not edit. -/
import Verif.Spec.RateLaw
set_option autoImplicit false

namespace DLB.Mech.%s
open DLB

''' % (CITE, mech, Name)
    rows = []
    arr = lambda x: '⟨%s⟩' % ', '.join(sdec(v) for v in x)
    for r in t['rx']:
        rest = r['rest']
        coeffs = [m.groups() for m in re.finditer(r'(kf=|kf0=)?\[(%s), (%s), (%s)\]' % (num, num, num), rest)]
        left = re.sub(r'(kf=|kf0=)?\[(%s), (%s), (%s)\]' % (num, num, num), '', rest)
        left = re.sub(r"efficiencies=['\"].*?['\"]", '', left)
        m = re.search(r'falloff=Troe\((.*?)\)', left)
        left = left.replace(m.group(0), '') if m else left
        left = re.sub(r"options=['\"]duplicate['\"]", '', left)
        left = re.sub(r'#.*', '', left)
        assert re.fullmatch(r'[\s,)]*', left), left
        if r['kind'] == 'falloff_reaction':
            assert [x[0] for x in coeffs] == ['kf=', 'kf0='], rest
            troe = 'none'
            if m:
                d = dict(x.strip().split('=') for x in m.group(1).split(','))
                assert set(d) <= {'A', 'T3', 'T1', 'T2'} and len(d) >= 3
                troe = '(some ⟨%s, %s, %s, %s⟩)' % (sdec(d['A']), sdec(d['T3']), sdec(d['T1']),
                                                    'some ' + sdec(d['T2']) if 'T2' in d else 'none')
            law = '.falloff %s %s %s' % (arr(coeffs[0][1:]), arr(coeffs[1][1:]), troe)
        else:
            assert [x[0] for x in coeffs] in (['kf='], [None]), rest
            law = '.simple %s' % arr(coeffs[0][1:])
        rows.append('/- chem.cti:%d  %s -/\n  %s' % (r['line'], r['eq'], law))
    out += '/-- The rate laws of the reactions, %s/%s/chem.cti:%d-%d -/\ndef laws : List RateLaw := [\n  %s]\n\n' % (
        CITE, mech, t['rx'][0]['line'], t['rx'][-1]['line'], ',\n  '.join(rows))
    out += 'end DLB.Mech.%s\n' % Name
    write('%s/%sLaws.lean' % (OUT, Name), out)


def allfile():
    out = '/- Generated by tools/gen_mechanisms.py. Do not edit. -/\nimport Verif.Model.Mechanism\n'
    for _, N in MECHS:
        for f in ('Rates', 'PresMod', 'Spec', 'Thermo', 'Data', 'Nasa', 'Laws'):
            out += 'import Verif.Mech.%s%s\n' % (N, f)
    out += 'set_option autoImplicit false\n\nnamespace DLB.Mech\n\n'
    fields = ['nsp', 'nFwd', 'nRev', 'nPresMod', 'rateStart', 'rateBlocks', 'presModStart', 'presModBlocks', 'specStart',
              'specBlocks', 'specRest', 'evalConc', 'evalH', 'evalCp', 'dydtCpAvg', 'dydtRest', 'mole2mass', 'mass2mole',
              'getDensity', 'getDensityResult', 'applyMask', 'applyReverseMask']
    for m, N in MECHS:
        low = N[0].lower() + N[1:]
        out += '/-- %s/%s/lib/src -/\ndef %s : Mech where\n' % (CITE, m, low)
        out += ''.join('  %s := %s.%s\n' % (f, N, f) for f in fields) + '\n'
    out += 'end DLB.Mech\n'
    write('%s/All.lean' % OUT, out)


def jacfile(mech, Name, c, files):
    """eval_jacob: one Lean module per source file jacobs/jacob_<k>.c, one for jacob.c"""
    n = c['nsp']
    norm = lambda s: re.sub(r'\s+', ' ', s).strip()
    for k in range(files):
        lines = load(mech, 'lib/src/jacobs/jacob_%d.c' % k)
        cite = '%s/%s/lib/src/jacobs/jacob_%d.c' % (CITE, mech, k)
        i = next(q for q, l in enumerate(lines) if l.startswith('void eval_jacob_%d ' % k)) + 1
        j = max(q for q, l in enumerate(lines) if l.startswith('}'))
        if k == files - 1:
            out = HEAD % (cite, Name)
            first = next(q for q in range(i, j) if lines[q].strip().startswith('jac['))
            out += deflist('jacobEndStart', parse_range(lines, i, first), '%s:%d-%d' % (cite, i + 1, first)) + '\n'
            ends = parse_range(lines, first, j)
            while lines[j - 1].strip() == '':
                j -= 1
            assert len(ends) == j - first and len(ends) % (2 * (n - 1)) == 0
            nb = len(ends) // (2 * (n - 1))
            for b in range(nb):
                z = b * 2 * (n - 1)
                out += deflist('jacobEnd%d' % b, ends[z:z + 2 * (n - 1)], '%s:%d-%d' % (cite, first + z + 1, first + z + 2 * (n - 1))) + '\n'
            out += '/-- The rows of `eval_jacob_%d` by species, %s:%d-%d -/\ndef jacobEnd : List (List CStmt) := [%s]\n\n' % (
                k, cite, first + 1, j, ', '.join('jacobEnd%d' % b for b in range(nb)))
            out += 'end DLB.Mech.%s\n' % Name
            write('%s/%sJacob%d.lean' % (OUT, Name, k), out)
            continue
        marks = [(q, re.match(r'//partial of rxn (\d+) wrt (T|species)$', lines[q].strip())) for q in range(i, j)]
        marks = [(q, int(m.group(1)), m.group(2)) for q, m in marks if m]
        ends = [q for q, _, _ in marks[1:]] + [j]
        out = HEAD % (cite, Name)
        out += deflist('jacob%dStart' % k, parse_range(lines, i, marks[0][0]), '%s:%d-%d' % (cite, i + 1, marks[0][0])) + '\n'
        names = []
        for (q, r, w), e in zip(marks, ends):
            nm = 'jacob%s%d' % ('T' if w == 'T' else 'S', r)
            names.append((r, w, nm))
            out += deflist(nm, parse_range(lines, q, e), '%s:%d-%d' % (cite, q + 1, e)) + '\n'
        assert [(r, w) for r, w, _ in names] == [(names[0][0] + z, w) for z in range(len(names) // 2) for w in ('T', 'species')]
        out += '/-- The blocks of `eval_jacob_%d`, one per reaction, %s:%d-%d: derivatives with respect to the temperature and to the mass fractions. -/\ndef jacob%dBlocks : List (List CStmt × List CStmt) := [\n  %s]\n' % (
            k, cite, i + 1, j, k, ', '.join('(%s, %s)' % (names[2 * z][2], names[2 * z + 1][2]) for z in range(len(names) // 2)))
        out += '\nend DLB.Mech.%s\n' % Name
        write('%s/%sJacob%d.lean' % (OUT, Name, k), out)
    lines = load(mech, 'lib/src/jacob.c')
    cite = '%s/%s/lib/src/jacob.c' % (CITE, mech)
    i, j = body(lines, 'void eval_jacob', '} // end')
    args = {}
    for k in range(files):
        l = next(x for x in load(mech, 'lib/src/jacobs/jacob_%d.c' % k) if x.startswith('void eval_jacob_%d ' % k))
        args[k] = [re.sub(r'.*[ *]', '', a.strip()) for a in l[l.index('(') + 1:l.index(')')].split(',')]
    known = ['pres', 'conc', 'fwd_rates', 'rev_rates', 'pres_mod', 'spec_rates', 'm', 'mw_avg', 'rho', 'dBdT', 'T', 'jac']
    assert all([a for a in known if a != 'm' or 'm' in args[k]] == args[k] for k in range(files - 1))
    assert args[files - 1] == ['mw_avg', 'rho', 'cp_avg', 'spec_rates', 'h', 'cp', 'jac']
    want = ['double T = y[0];', 'double mw_avg;', 'double rho;', 'double conc[%d];' % n, 'double y_N;',
            'eval_conc(y[0], pres, &y[1], &y_N, &mw_avg, &rho, conc);',
            'double fwd_rates[%d];' % c['fwd'], 'double rev_rates[%d];' % c['rev'],
            'eval_rxn_rates (T, pres, conc, fwd_rates, rev_rates);',
            'double pres_mod[%d];' % c['pm'], 'get_rxn_pres_mod (T, pres, conc, pres_mod);',
            'double spec_rates[%d] = {0};' % n,
            'eval_spec_rates (fwd_rates, rev_rates, pres_mod, spec_rates, &spec_rates[%d]);' % (n - 1)]
    txt = norm('\n'.join(strip_comment(l) for l in lines[i:j]))
    for w in want:
        assert txt.startswith(w), (w, txt[:100])
        txt = txt[len(w):].strip()

    def upto(s):
        nonlocal txt
        assert txt.count(s) == 1, s
        a, txt = txt.split(s)
        txt = txt.strip()
        return a
    dec_ = 'double dBdT[%d];' % n
    pre = upto(dec_)
    dbdt = upto('eval_jacob_0(' + ', '.join(args[0]) + ');')
    for k in range(1, files - 1):
        assert upto('eval_jacob_%d(%s);' % (k, ', '.join(args[k]))) == ''
    assert norm(upto('double cp_avg;')) == 'double h[%d]; eval_h(T, h); double cp[%d]; eval_cp(T, cp);' % (n, n)
    mid = upto('eval_jacob_%d(%s);' % (files - 1, ', '.join(args[files - 1])))
    out = HEAD % (cite, Name)
    ln = lambda s: next(q for q in range(i, j) if s in lines[q]) + 1
    out += deflist('jacobPre', P(tokenize(pre)).stmts(), '`m` and `logT`, %s:%d-%d' % (cite, ln('double m ='), ln('double logT'))) + '\n'
    out += deflist('jacobDBdT', P(tokenize(dbdt)).stmts(), 'the assignments to dBdT, %s:%d-%d' % (cite, ln(dec_) + 1, ln('eval_jacob_0') - 2)) + '\n'
    out += deflist('jacobCpAvg', P(tokenize(mid)).stmts(), '`cp_avg`, `jac[0]` and `working_temp`, %s:%d-%d' % (
        cite, ln('cp_avg ='), ln('double working_temp'))) + '\n'
    out += deflist('jacobLast', P(tokenize(txt)).stmts(), 'the last part of `eval_jacob`, %s:%d-%d' % (cite, ln('eval_jacob_%d(' % (files - 1)) + 1, j)) + '\n'
    out += 'end DLB.Mech.%s\n' % Name
    write('%s/%sJacob.lean' % (OUT, Name), out)
    out = '/- Generated by tools/gen_mechanisms.py. Do not edit. -/\nimport Verif.Model.Jacobian\nimport Verif.Mech.%sJacob\n' % Name
    out += ''.join('import Verif.Mech.%sJacob%d\n' % (Name, k) for k in range(files))
    out += 'set_option autoImplicit false\n\nnamespace DLB.Mech.%s\nopen DLB\n\n' % Name
    out += '/-- %s and jacobs/jacob_<k>.c -/\ndef jacob : JacobSrc where\n  pre := jacobPre\n  dBdT := jacobDBdT\n' % cite
    out += '  parts := [%s]\n' % ', '.join('⟨%s, jacob%dStart, jacob%dBlocks⟩' % ('true' if 'm' in args[k] else 'false', k, k) for k in range(files - 1))
    out += '  cpAvg := jacobCpAvg\n  endStart := jacobEndStart\n  endRows := jacobEnd\n  last := jacobLast\n\nend DLB.Mech.%s\n' % Name
    write('%s/%sJacobSrc.lean' % (OUT, Name), out)


def jacslice(mech, Name, c, files, ends):
    """The slice of eval_jacob on which the entries 0 .. nsp-1 of jac depend: the statements before the reactions, of each file
    jacobs/jacob_<k>.c the statements under "partial of rxn <r> wrt T", and the statements for cp_avg, working_temp and jac[0].
    What is left out is checked here to assign only entries jac[i] with i >= nsp, J_nplusjplus and local variables that the
    statements kept never read before assigning them.  An assignment to *J_nplusone becomes the second half of its block."""
    n = c['nsp']
    norm = lambda s: re.sub(r'\s+', ' ', s).strip()
    target = re.compile(r'(?:double )?\*?(\w+)(?:\[(\d+)\])? (=|\+=|-=|\*=) ')

    def rdlocs(e):
        if e[0] == 'rd':
            return {e[1]}
        return set() if e[0] == 'num' else set().union(*[rdlocs(x) for x in e[1:]])

    args, rxns, starts = {}, 0, []
    for k in range(files):
        lines = load(mech, 'lib/src/jacobs/jacob_%d.c' % k)
        cite = '%s/%s/lib/src/jacobs/jacob_%d.c' % (CITE, mech, k)
        i = next(q for q, l in enumerate(lines) if l.startswith('void eval_jacob_%d ' % k)) + 1
        j = max(q for q, l in enumerate(lines) if l.startswith('}'))
        l = lines[i - 1]
        args[k] = [re.sub(r'.*[ *]', '', a.strip()) for a in l[l.index('(') + 1:l.index(')')].split(',')]
        if k >= files - ends:
            for l in lines[i:j]:
                m = target.match(strip_comment(l).strip()) if strip_comment(l).strip() else None
                assert not strip_comment(l).strip() or m and (m.group(1) != 'jac' or int(m.group(2)) >= n), l
                assert not m or m.group(1) in ('jac', 'working_temp', 'rho_inv', 'j_temp', 'J_nplusjplus'), l
            continue
        marks = [(q, re.match(r'//partial of rxn (\d+) wrt (T|species)$', lines[q].strip())) for q in range(i, j)]
        marks = [(q, int(m.group(1)), m.group(2)) for q, m in marks if m]
        stops = [q for q, _, _ in marks[1:]] + [j]
        out = (HEAD % (cite, Name)).replace('set_option autoImplicit false\n', 'set_option autoImplicit false\nset_option maxRecDepth 1000000\n')
        start = parse_range(lines, i, marks[0][0])
        out += deflist('jacob%dStart' % k, start, '%s:%d-%d' % (cite, i + 1, marks[0][0])) + '\n'
        live = {x[1] for x in start}          # locals with the value that the kept statements have given to them
        names = []
        for (q, r, w), e in zip(marks, stops):
            if w == 'T':
                keep = [z for z in range(q, e) if not lines[z].strip().startswith('*J_nplusone = ')]
                ss = parse_range([lines[z] for z in keep], 0, len(keep))
                moved = [z for z in range(q, e) if z not in keep]
                sn = parse_range([lines[z].replace('*J_nplusone', 'J_nplusone') for z in moved], 0, len(moved))
                assert len(sn) <= 1 and all(x[0] == 'set' and x[1] == ('var', 'jN') and rdlocs(x[2]) == {('var', 'jTemp')} for x in sn)
                for z in range(moved[0] + 1, e) if moved else []:      # what follows the assignment does not interfere with it
                    m = target.match(strip_comment(lines[z]).strip())
                    assert not strip_comment(lines[z]).strip() or m.group(1) == 'jac' and 'J_nplusone' not in lines[z]
                assert all(x[0] == 'set' and ('var', 'jN') not in rdlocs(x[2]) for x in ss)
                for x in ss:
                    for l in rdlocs(x[2]):
                        assert l in live or l[0] == 'arr' or l[1] in ('T', 'pres', 'm', 'rho'), (k, r, l)
                    if x[1][0] == 'var':
                        live.add(x[1])
                    else:
                        assert x[1][1] == 'jac' and 1 <= x[1][2] < n
                names.append((r, '(jacobT%d, %s)' % (r, 'jacobN%d' % r if sn else '[]')))
                out += deflist('jacobT%d' % r, ss, '%s:%d-%d%s' % (cite, q + 1, e, ' without the assignment to `*J_nplusone`' if sn else '')) + '\n'
                if sn:
                    out += deflist('jacobN%d' % r, sn, '%s:%d' % (cite, moved[0] + 1)) + '\n'
            else:
                for z in range(q, e):
                    l = strip_comment(lines[z]).strip()
                    if l == '' or l == '}' or l == '} else {' or re.fullmatch(r'if \(T <= [\d.]+\) \{', l):
                        continue
                    m = target.match(l)
                    assert m, l
                    if m.group(1) == 'jac':
                        assert int(m.group(2)) >= n, l
                    elif m.group(1) == 'J_nplusjplus':
                        pass
                    else:
                        live.discard(('var', VARS[m.group(1)]))
        assert [r for r, _ in names] == list(range(rxns, rxns + len(names)))
        rxns += len(names)
        out += '/-- The derivatives with respect to the temperature in `eval_jacob_%d`, one block per reaction, %s:%d-%d. -/\ndef jacob%dBlocks : List (List CStmt × List CStmt) := [\n  %s]\n' % (
            k, cite, i + 1, j, k, ', '.join(nm for _, nm in names))
        out += '\nend DLB.Mech.%s\n' % Name
        write('%s/%sJacob%d.lean' % (OUT, Name, k), out)
    assert rxns == c['fwd']
    lines = load(mech, 'lib/src/jacob.c')
    cite = '%s/%s/lib/src/jacob.c' % (CITE, mech)
    i, j = body(lines, 'void eval_jacob', '} // end')
    known = ['pres', 'conc', 'fwd_rates', 'rev_rates', 'pres_mod', 'spec_rates', 'm', 'mw_avg', 'rho', 'dBdT', 'T', 'jac']
    for k in range(files - ends):
        a = [x for x in known if x != 'm' or 'm' in args[k]]
        assert args[k] in (a, a + ['J_nplusone', 'J_nplusjplus']), args[k]
    want = ['double T = y[0];', 'double mw_avg;', 'double rho;', 'double conc[%d];' % n, 'double y_N;',
            'eval_conc(y[0], pres, &y[1], &y_N, &mw_avg, &rho, conc);',
            'double fwd_rates[%d];' % c['fwd'], 'double rev_rates[%d];' % c['rev'],
            'eval_rxn_rates (T, pres, conc, fwd_rates, rev_rates);',
            'double pres_mod[%d];' % c['pm'], 'get_rxn_pres_mod (T, pres, conc, pres_mod);',
            'double spec_rates[%d] = {0};' % n,
            'eval_spec_rates (fwd_rates, rev_rates, pres_mod, spec_rates, &spec_rates[%d]);' % (n - 1)]
    txt = norm('\n'.join(strip_comment(l) for l in lines[i:j]))
    for w in want:
        assert txt.startswith(w), (w, txt[:100])
        txt = txt[len(w):].strip()

    def upto(s):
        nonlocal txt
        assert txt.count(s) == 1, s
        a, txt = txt.split(s)
        txt = txt.strip()
        return a
    call = lambda k: 'eval_jacob_%d(%s);' % (k, ', '.join('&' + a if a == 'J_nplusone' else a for a in args[k]))
    dec_ = 'double dBdT[%d];' % n
    pre = upto(dec_)
    jn = 'double J_nplusone = 0; double J_nplusjplus[NSP];'
    assert (jn in pre) == any('J_nplusone' in args[k] for k in range(files))
    pre = pre.replace(jn, 'double J_nplusone = 0;')
    dbdt = upto(call(0))
    for k in range(1, files - ends):
        assert upto(call(k)) == ''
    assert norm(upto('double cp_avg;')) == 'double h[%d]; eval_h(T, h); double cp[%d]; eval_cp(T, cp);' % (n, n)
    mid = upto(call(files - ends))
    for k in range(files - ends + 1, files):
        assert upto(call(k)) == ''
    assert {m.group(1) for m in re.finditer(r'(jac\[\d+\]|\w+) \+?= ', txt)} == {'jac[0]', 'working_temp'}
    out = HEAD % (cite, Name)
    ln = lambda s: next(q for q in range(i, j) if s in lines[q]) + 1
    out += deflist('jacobPre', P(tokenize(pre)).stmts(), '`m` and `logT`, %s:%d-%d' % (cite, ln('double m ='), ln('double logT'))) + '\n'
    out += deflist('jacobDBdT', P(tokenize(dbdt)).stmts(), 'the assignments to dBdT, %s:%d-%d' % (cite, ln(dec_) + 1, ln('eval_jacob_0') - 2)) + '\n'
    out += deflist('jacobCpAvg', P(tokenize(mid)).stmts(), '`cp_avg`, `jac[0]` and `working_temp`, %s:%d-%d' % (
        cite, ln('cp_avg ='), ln('double working_temp'))) + '\n'
    out += deflist('jacobLast', P(tokenize(txt)).stmts(), '`working_temp` and `jac[0]`, %s:%d-%d' % (
        cite, ln('eval_jacob_%d(' % (files - 1)) + 1, j)) + '\n'
    out += 'end DLB.Mech.%s\n' % Name
    write('%s/%sJacob.lean' % (OUT, Name), out)
    out = '/- Generated by tools/gen_mechanisms.py. Do not edit. -/\nimport Verif.Model.Jacobian\nimport Verif.Mech.%sJacob\n' % Name
    out += ''.join('import Verif.Mech.%sJacob%d\n' % (Name, k) for k in range(files - ends))
    out += 'set_option autoImplicit false\n\nnamespace DLB.Mech.%s\nopen DLB\n\n' % Name
    out += ('/-- %s and jacobs/jacob_<k>.c. Simplified: only the statements on which the entries 0 to %d of `jac` depend, that is without the\n'
            'statements under "partial of rxn <r> wrt species" and without eval_jacob_%d to eval_jacob_%d; the generator checks that what is left out\n'
            'assigns no such entry and nothing that the statements kept read. An assignment to `*J_nplusone` is moved behind the assignments to\n'
            'entries of `jac` in its block, which neither read nor assign what it does. -/\n'
            'def jacobSlice : JacobSrc where\n  pre := jacobPre\n  dBdT := jacobDBdT\n') % (cite, n - 1, files - ends, files - 1)
    out += '  parts := [%s]\n' % ', '.join('⟨%s, jacob%dStart, jacob%dBlocks⟩' % ('true' if 'm' in args[k] else 'false', k, k) for k in range(files - ends))
    out += '  cpAvg := jacobCpAvg\n  endStart := []\n  endRows := []\n  last := jacobLast\n\nend DLB.Mech.%s\n' % Name
    write('%s/%sJacobSrc.lean' % (OUT, Name), out)


def morefile(mech, Name):
    """functions that the chemistry model does not call"""
    src = '%s/%s/lib/src/' % (CITE, mech)
    out = HEAD % (src + '{chem_utils,sparse_multiplier}.c', Name)
    out = out.replace('set_option autoImplicit false\n', 'set_option autoImplicit false\nset_option maxRecDepth 1000000\n')
    cu = load(mech, 'lib/src/chem_utils.c')
    for fn, nm in (('void eval_conc_rho (', 'evalConcRho'), ('void eval_u (', 'evalU'), ('void eval_cv (', 'evalCv')):
        i, j = body(cu, fn, '} // end')
        out += deflist(nm, parse_range(cu, i, j), '%schem_utils.c:%d-%d' % (src, i, j + 1)) + '\n'
    sm = load(mech, 'lib/src/sparse_multiplier.c')
    i, j = body(sm, 'void sparse_multiplier', '}')
    out += deflist('sparseMultiplier', parse_range(sm, i, j), '%ssparse_multiplier.c:%d-%d' % (src, i, j + 1)) + '\n'
    out += 'end DLB.Mech.%s\n' % Name
    write('%s/%sMore.lean' % (OUT, Name), out)


if __name__ == '__main__':
    main()
    allfile()
    for m, N in MECHS:
        morefile(m, N)
    jacfile('drm19', 'Drm19', consts('drm19'), 4)
    jacslice('gri30', 'Gri30', consts('gri30'), 11, 2)
    jacslice('yao', 'Yao', consts('yao'), 9, 2)
