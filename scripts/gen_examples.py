#!/usr/bin/env python3
"""Generate lean/Verif/Model/Examples.lean from the example programs /repo/examples/*.l1.
The reader here is only used to write the Lean literals; Lemmas/ExampleText.lean proves that the model's reader reads the same forms."""
import re, sys
TOK = re.compile(r"(;[^\n]*|\A#![^\n]*)|(\s+)|(~@)|([()'`~])|([-+]?\d+)(?=[\s()]|$)|([^\s()~@#;`']+)")
def tokens(text):
    i = 0; out = []; line = 1
    while i < len(text):
        m = TOK.match(text, i); assert m, text[i:i+20]
        if not m.group(1) and not m.group(2): out.append((m.group(0), line))
        line += m.group(0).count('\n')
        i = m.end()
    return out
PRE = {"'": 'quote', '`': 'syntax-quote', '~': 'unquote', '~@': 'splicing-unquote'}
def parse(ts, i):
    t = ts[i][0]
    if t in PRE:
        v, j = parse(ts, i+1); return ('L', [('A', PRE[t]), v], None), j
    if t == '(':
        xs = []; tail = None; i += 1
        while ts[i][0] != ')':
            if ts[i][0] == '.': tail, i = parse(ts, i+1); continue
            v, i = parse(ts, i); xs.append(v)
        return ('L', xs, tail), i+1
    if re.fullmatch(r'[-+]?\d+', t): return ('N', int(t)), i+1
    return ('A', t), i+1
def q(s): return '"' + s.replace('\\', '\\\\').replace('"', '\\"').replace('\t', '\\t') + '"'
def lean(v):
    if v[0] == 'A': return '.atom ' + q(v[1])
    if v[0] == 'L' and len(v[1]) > 500: return 'vlist (galaxNames.map .atom)'
    if v[0] == 'N': return '.num ' + (str(v[1]) if v[1] >= 0 else f'({v[1]})')
    if v[2] is None:
        return '.nil' if not v[1] else 'vlist [' + ', '.join(lean(x) for x in v[1]) + ']'
    return 'mkList [' + ', '.join(lean(x) for x in v[1]) + '] (' + lean(v[2]) + ')'
def ident(n):
    return n.replace('/', 'slash').replace('*', 'Star').replace('?', 'P').replace('-', '_').replace('=', 'Eq')
def generate(progs, path, imp, pre):
    out = []
    w = out.append
    w(f'''import {imp}
/-
GENERATED by scripts/gen_examples.py from /repo/examples; do not edit.
Example programs of the repository: their text, line by line; the forms; and the functions they define.
-/
set_option autoImplicit false
namespace L1
''')
    for name, parsed in progs:
        file = name
        name = re.sub('-(.)', lambda m: m.group(1).upper(), name)
        src = open(f'/repo/examples/{file}.l1').read()
        w(f'/-- The lines of examples/{file}.l1. -/')
        w(f'def {name}Lines : List String := [')
        w('  ' + ',\n  '.join(q(l) for l in src.split('\n')) + ']\n')
        w(f'/-- The text of examples/{file}.l1. -/')
        w(f'def {name}Text : List Char := joinNl ({name}Lines.map String.toList)\n')
        if not parsed: continue
        ts = tokens(src); i = 0; forms = []
        while i < len(ts):
            ln = ts[i][1]; v, i = parse(ts, i); forms.append((v, ln))
        if name == 'galax':
            v, ln = next((v, ln) for v, ln in forms if v[0] == 'L' and v[1][1:2] == [('A', 'all-names')])
            w(f'/-- The names of planets, examples/galax.l1:{ln}. -/')
            w('def galaxNames : List String := [' + ', '.join(q(x[1]) for x in v[1][2][1][1][1]) + ']\n')
        w(f'/-- The forms of examples/{file}.l1. -/')
        w(f'def {name}Forms : List Val := [')
        w('  ' + ',\n  '.join(lean(v) for v, _ in forms) + ']\n')
        last = {}
        for v, ln in forms:
            if v[0] == 'L' and v[1] and v[1][0] == ('A', 'defn'): last[v[1][1][1]] = ln
        for v, ln in forms:
            if v[0] == 'L' and v[1] and v[1][0] == ('A', 'defnth'):
                nm = v[1][1][1]; call = lean(('L', [('A', 'randchoice'), v[1][2]], None))
                w(f'/-- `{nm}`, defined with `defnth` in examples/{file}.l1:{ln}, as a function value. -/')
                w(f'def {pre.get(name, "x_")}{ident(nm)} : Val := .lam [] "" (vlist [{call}]) .nil false 0\n')
            if v[0] == 'L' and v[1] and v[1][0] == ('A', 'defmacro'):
                nm, params, body = v[1][1][1], v[1][2], v[1][3:]
                ps = ', '.join(q(p[1]) for p in params[1])
                w(f'/-- The macro `{nm}`, examples/{file}.l1:{ln}. -/')
                w(f'def {pre.get(name, "x_")}{ident(nm)} : Val := .lam [{ps}] "" ({lean(("L", body, None))}) .nil true 0\n')
            if v[0] == 'L' and v[1] and v[1][0] == ('A', 'defn'):
                nm, params, body = v[1][1][1], v[1][2], v[1][3:]
                if last[nm] != ln: continue
                ps = ', '.join(q(p[1]) for p in params[1] if p[0] == 'A')
                rest = params[2][1] if params[2] else ''
                doc = '.nil'
                if body and body[0][0] == 'L' and body[0][1] and body[0][1][0] == ('A', 'doc'):
                    doc = lean(('L', body[0][1][1:], None)); body = body[1:]
                    doc = doc if doc == '.nil' else f'({doc})'
                w(f'/-- `{nm}`, examples/{file}.l1:{ln}, as a function value. -/')
                w(f'def {pre.get(name, "x_")}{ident(nm)} : Val := .lam [{ps}] {q(rest)} ({lean(("L", body, None))}) {doc} false 0\n')
    w('end L1')
    open(path, 'w').write('\n'.join(out) + '\n')
D = sys.argv[1] if len(sys.argv) > 1 else '/verif/lean/Verif/Model'
generate([('fact',1),('primes',1),('tco',1),('hello',1),('fails',1),('badlex',0)], D + '/Examples.lean', 'Verif.Model.CoreLib', {})
generate([('sentences',1),('meta',1),('eliza',1)], D + '/Examples2.lean', 'Verif.Model.CoreLib', {'sentences': 's_', 'meta': 'm_', 'eliza': 'z_'})
generate([('fuzz-legal',1)], D + '/Examples3.lean', 'Verif.Model.CoreLib', {'fuzzLegal': 'f_'})
generate([('galax',1)], D + '/Examples4.lean', 'Verif.Model.CoreLib', {'galax': 'g_'})
generate([('screen-test',1),('help',1)], D + '/Examples5.lean', 'Verif.Model.CoreLib', {})
