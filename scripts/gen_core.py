#!/usr/bin/env python3
"""Generate lean/Verif/Model/CoreLib.lean from /repo/lisp/l1.l1 (the core library, embedded by lisp/core.go).
The reader here is only used to write the Lean literals; Lemmas/CoreText.lean proves that the model's reader reads
the same forms from the same text."""
import re
src = open('/repo/lisp/l1.l1').read()
lines = src.split('\n')
TOK = re.compile(r"(;[^\n]*)|(\s+)|(~@)|([()'`~])|([-+]?\d+)(?=[\s()]|$)|([^\s()~@#;`']+)")
def tokens(text):
    i = 0; out = []
    while i < len(text):
        m = TOK.match(text, i); assert m, text[i:i+20]
        if not m.group(1) and not m.group(2): out.append(m.group(0))
        i = m.end()
    return out
PRE = {"'": 'quote', '`': 'syntax-quote', '~': 'unquote', '~@': 'splicing-unquote'}
def parse(ts, i):
    t = ts[i]
    if t in PRE:
        v, j = parse(ts, i+1); return (['A'+PRE[t], v], j) if False else (('L', [('A', PRE[t]), v], None), j)
    if t == '(':
        xs = []; tail = None; i += 1
        while ts[i] != ')':
            if ts[i] == '.': tail, i = parse(ts, i+1); continue
            v, i = parse(ts, i); xs.append(v)
        return ('L', xs, tail), i+1
    if re.fullmatch(r'[-+]?\d+', t): return ('N', int(t)), i+1
    # "foo." etc.: the lexer keeps '.' inside atoms
    return ('A', t), i+1
def q(s): return '"' + s.replace('\\', '\\\\').replace('"', '\\"').replace('\t', '\\t') + '"'
def lean(v):
    if v[0] == 'A': return '.atom ' + q(v[1])
    if v[0] == 'N': return '.num ' + (str(v[1]) if v[1] >= 0 else f'({v[1]})')
    if v[2] is None:
        return '.nil' if not v[1] else 'vlist [' + ', '.join(lean(x) for x in v[1]) + ']'
    return 'mkList [' + ', '.join(lean(x) for x in v[1]) + '] (' + lean(v[2]) + ')'
def par(s): return s if ' ' not in s else '(' + s + ')'
# chunks: a form starts on a line whose first character is '('
starts = [i for i, l in enumerate(lines) if l.startswith('(')]
bounds = [0] + starts[1:] + [len(lines)]
chunks = [lines[a:b] for a, b in zip(bounds, bounds[1:])]
forms = []
for c in chunks:
    ts = tokens('\n'.join(c)); v, j = parse(ts, 0); assert j == len(ts), c; forms.append(v)
def ident(n):
    return 'k_' + n.replace('*', 'Star').replace('?', 'P').replace('-', '_').replace('=', 'Eq')
out = []
w = out.append
w('''import Verif.Model.Main
/-
GENERATED by scripts/gen_core.py from /repo/lisp/l1.l1 (embedded by lisp/core.go:5-6); do not edit.
The core library: its text, line by line, and the forms it consists of.  Lemmas/CoreText.lean proves that reading the text gives the forms,
Lemmas/CoreLoad.lean that evaluating them gives the bindings `coreDefs`.
-/
set_option autoImplicit false
namespace L1
''')
w('/-- The lines of lisp/l1.l1, one element per top-level form (with the comments and blank lines around it). -/')
w('def coreChunks : List (List String) := [')
for k, c in enumerate(chunks):
    w('  [' + ',\n   '.join(q(l) for l in c) + ']' + (',' if k + 1 < len(chunks) else ']'))
w('')
w('/-- `RawCore`, lisp/core.go:5-6: the text of lisp/l1.l1. -/')
w('def coreText : List Char := joinNl ((coreChunks.flatten).map String.toList)\n')
names = []
defs = {}
line = lambda i: starts[i] + 1
for i, v in enumerate(forms):
    head, name = v[1][0][1], v[1][1][1]
    if name == 'pi100': continue
    if head == 'def': continue
    params, body = v[1][2], v[1][3:]
    doc = '.nil'
    if body and body[0][0] == 'L' and body[0][1] and body[0][1][0] == ('A', 'doc'):
        d = body[0][1][1:]
        if d and d[0] == ('L', [], None): doc = '.nil'
        else: doc = par(lean(('L', d, None)))
        body = body[1:]
    ps = [p for p in params[1]]
    if ps and ps[0] == ('L', [], None): ps = []
    rest = params[2][1] if params[2] else ''
    end = starts[i+1] if i + 1 < len(starts) else len(lines)
    id = ident(name)
    if name in defs: id = id + "'"
    defs[name] = (id, [p[1] for p in ps], rest, body, doc, head == 'defmacro', i, params, v)
    w(f'/-- The body of `{name}`, lisp/l1.l1:{line(i)}. -/')
    w(f'def {id}_body : Val := ' + lean(('L', body, None)) + '\n')
    w(f'/-- The documentation of `{name}`, lisp/l1.l1:{line(i)}. -/')
    w(f'def {id}_doc : Val := ' + doc.strip('()') + '\n' if False else f'def {id}_doc : Val := {doc}\n')
    w(f'/-- `{name}`, lisp/l1.l1:{line(i)}, as a function value. -/')
    w(f'def {id} : Val := .lam [{", ".join(q(p[1]) for p in ps)}] {q(rest)} {id}_body {id}_doc {"true" if head=="defmacro" else "false"} 0\n')
    names.append((i, name, id))
w('/-- The top-level forms of lisp/l1.l1, in order. -/')
w('def coreForms : List Val := [')
idx = {i: (n, id) for i, n, id in names}
for i, v in enumerate(forms):
    w('  ' + lean(v) + (',' if i + 1 < len(forms) else ']'))
w('')
w('/-- What each name of the core library is bound to once it is loaded (lisp/l1.l1; `range` is defined twice, the second definition replaces the first). -/')
w('def coreDefs : List (String × Val) := [')
order = []
for i, v in enumerate(forms):
    n = v[1][1][1]
    if n not in order: order.append(n)
piN = int(''.join(str(x[1]) for x in forms[0][1][2][1][1][1][1][1]))
ent = []
for n in order:
    if n == 'pi100': ent.append(f'({q(n)}, .num {piN})')
    elif n == 'first': ent.append(f'({q(n)}, .bi .car)')
    else: ent.append(f'({q(n)}, {defs[n][0]})')
w('  ' + ',\n  '.join(ent) + ']\n')
w('end L1')
open('/verif/lean/Verif/Model/CoreLib.lean', 'w').write('\n'.join(out) + '\n')
print(len(forms), 'forms', len(order), 'names')

# ---- lemmas about names ----
import re as _re
model = open('/verif/lean/Verif/Model/Syntax.lean').read()
bis = _re.findall(r'\.(\w+) => "([^"]+)"', model.split('def BI.name')[1].split('def BI.all')[0])
sfs = _re.findall(r'\.(\w+) => "([^"]+)"', model.split('def SF.name')[1].split('def SF.all')[0])
def lid(n):
    m = {'+':'plus','-':'minus','*':'times','/':'div','=':'eq','<':'lt','<=':'le','>':'gt','>=':'ge'}
    return m.get(n) or n.replace('*','Star').replace('?','P').replace('-','_').replace('=','Eq').replace('!','B')
o = []
w = o.append
w('''import Verif.Lemmas.Core
/-
GENERATED by scripts/gen_core.py; do not edit.  What each name means to the core library.
-/
set_option autoImplicit false
namespace L1

/-- The name `a`, not bound locally, stands for the function `f`. -/
structure Head (a : String) (f : Val) : Prop where
  val : coreVal a = some f
  notMacro : f.notMacro = true
  special : specialOf a = none
  cxr : isCxr a = false
  t : a ≠ "t"
''')
for c, n in sfs: w(f'theorem known_{lid(n)} : known {q(n)} = some none := by decide +kernel')
for c, n in bis: w(f'theorem hd_{lid(n)} : Head {q(n)} (.bi .{c}) := by refine ⟨?_, ?_, ?_, ?_, ?_⟩ <;> decide +kernel')
for n in order:
    if n == 'pi100': continue
    if n == 'first': w('theorem hd_first : Head "first" (.bi .car) := by refine ⟨?_, ?_, ?_, ?_, ?_⟩ <;> decide +kernel'); continue
    id, ps, rest, body, doc, mac = defs[n][:6]
    w(f'theorem known_{lid(n)} : known {q(n)} = some (some {id}) := by decide +kernel')
    if not mac: w(f'theorem hd_{lid(n)} : Head {q(n)} {id} := by refine ⟨?_, ?_, ?_, ?_, ?_⟩ <;> decide +kernel')
w('\nend L1')
open('/verif/lean/Verif/Lemmas/CoreKnown.lean', 'w').write('\n'.join(o) + '\n')
