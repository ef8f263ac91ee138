#!/usr/bin/env python3
"""Run the model on the project's own test data and compare with what the Go program does (a test of the model, not part of the proofs).

Usage: python3 scripts/conform.py [lake project, default /verif/lean] ; the project must have been built.  Parts can be named after the project: tables, docs, tests.  `tests` runs the interpreter of Lean on the model and is slow.

1. lisp/lex_test.go, lisp/parse_test.go, lisp/sexpr_test.go, lisp/eval_test.go: the cases in the tables.
2. tests.l1: every form, with smaller numbers in five places where the computation is long (see SMALLER).
3. api.md: made by the Go program with -longdoc; compared line by line with the output of the modelled -longdoc.
4. lisp/examples.txt: the text of (help).
"""
import re, subprocess, sys, os, tempfile
PROJ = sys.argv[1] if len(sys.argv) > 1 else '/verif/lean'
TMP = tempfile.mkdtemp(prefix='conform')
STR = r'"(?:[^"\\]|\\.)*"'

def lean(name, text, *args):
    p = os.path.join(TMP, name); open(p, 'w').write(text)
    r = subprocess.run(['bash', '-c', 'ulimit -s unlimited; cd "$0"; exec lake env lean --run "$@"', PROJ, p, *args], capture_output=True, text=True)
    return r.stdout + r.stderr

def parse(s, i):
    "a Go expression made with Cons, L, S, A, Atom, Num, Nil, as Lean"
    while s[i] in ' \n\t,': i += 1
    if s.startswith('Cons(', i):
        a, i = parse(s, i + 5); b, i = parse(s, i)
        while s[i] != ')': i += 1
        return f'(.cons {a} {b})', i + 1
    if s.startswith(('L(', 'S('), i):
        isS = s[i] == 'S'; i += 2; xs = []
        while True:
            while s[i] in ' \n\t,': i += 1
            if s[i] == ')': break
            a, i = parse(s, i); xs.append(a)
        xs = '[' + ', '.join(xs) + ']'
        return (xs if isS else f'(vlist {xs})'), i + 1
    if s.startswith('Nil', i): return '.nil', i + 3
    m = re.compile(r'(?:Atom\{|A\()("[^"]*")[})]').match(s, i)
    if m: return f'(.atom {m.group(1)})', m.end()
    m = re.compile(r'Num\("?(-?\d+)"?\)').match(s, i)
    if m: return f'(.num {m.group(1)})', m.end()
    raise Exception(s[i:i + 50])

def go(f): return open('/repo/lisp/' + f).read()

def tables():
    src = go('lex_test.go'); src = re.sub(r'\t//.*', '', src[src.index('var tests'):src.index('for _, test')])
    lex = []
    for m in re.finditer(r'\{S\((.*?)\), toks\((.*?)\)\},\n', src, re.S):
        lex.append('([%s],[%s])' % (', '.join(re.findall(STR, m.group(1))), ', '.join(f'("{k}",{v},{l})' for k, v, l in re.findall(r'([A-Za-z]+)\((' + STR + r'), (\d+)\)', m.group(2)))))
    assert len(lex) == src.count('{S(')
    src = go('parse_test.go'); src = re.sub(r'\t//.*', '', src[src.index('var tests'):src.index('for _, test')])
    ps = []
    for m in re.finditer(r'\{(' + STR + r'), (?=Nil|Atom|Cons)', src):
        v, i = parse(src, m.end())
        r = re.compile(r', *(OK|"[^"]*")').match(src, i).group(1)
        ps.append(f'({m.group(1)},[{v}],{chr(34) * 2 if r == "OK" else r})')
    src = go('sexpr_test.go'); src = src[src.index('var happyPath'):]
    for m in re.finditer(r'\{(' + STR + r'), (?=S\()', src): ps.append(f'({m.group(1)},{parse(src, m.end())[0]},"")')
    for m in re.finditer(r'\t\{(' + STR + r')\},', src): ps.append(f'({m.group(1)},[],"(")')
    src = go('eval_test.go'); src = re.sub(r'\t//.*', '', src[src.index('var tests'):])
    ev = [f'({a},{b},{chr(34) * 2 if c == "OK" else c})' for a, b, c in re.findall(r'S\((' + STR + r'), (' + STR + r'), (OK|' + STR + r')\)', src)]
    assert len(ev) == len(re.findall(r'\bS\("', src))
    text = '''import Verif.Props.Docs
open L1
def lexCases : List (List String × List (String × String × Nat)) := [
''' + ',\n'.join(lex) + ''']
def parseCases : List (String × List Val × String) := [
''' + ',\n'.join(ps) + ''']
def evalCases : List (String × String × String) := [
''' + ',\n'.join(ev) + ''']
def kindName : Typ → String
  | .number => "N" | .lparen => "LP" | .rparen => "RP" | .atom => "A" | .dot => "DOT" | .quote => "QUOTE" | .syntaxQuote => "BACKQUOTE" | .unquote => "UNQUOTE"
  | .splicingUnquote => "SPLICINGUNQUOTE" | .commentNext => "COMMENTNEXT" | .shebang => "SHEBANG" | .error => "Err"
def main : IO Unit := do
  let mut bad := 0
  for (i, o) in lexCases do
    let r := (lexItems (i.map String.toList)).map fun t => (kindName t.typ, String.ofList t.val, t.line)
    if r != o then bad := bad + 1; IO.println s!"LEX {i}: {r} want {o}"
  for (i, o, er) in parseCases do
    match readText i.toList with
    | .ok xs => if er != "" || xs != o then bad := bad + 1; IO.println s!"PARSE {i}"
    | .err e => if er == "" || !containsC er.toList e.str then bad := bad + 1; IO.println s!"PARSE {i}: {String.ofList e.str} want {er}"
    | _ => bad := bad + 1; IO.println s!"PARSE {i}"
  let mut st := topSt (initSt []) coreEnv
  for (i, o, er) in evalCases do
    match readText i.toList with
    | .err e => if er == "" || !containsC er.toList e.str then bad := bad + 1; IO.println s!"READ {i}: {String.ofList e.str} want {er}"
    | .ok [x] =>
      match run sampleWorld 2000 2000 (.eval x 0) st with
      | .ok v s => st := s; if er != "" || v.str != o.toList then bad := bad + 1; IO.println s!"EVAL {i}: {String.ofList v.str} want {o} {er}"
      | .err e s => st := s; if er == "" || !containsC er.toList e.str then bad := bad + 1; IO.println s!"EVAL {i}: {String.ofList e.str} want {o} {er}"
      | _ => bad := bad + 1; IO.println s!"EVAL {i}"
    | _ => bad := bad + 1; IO.println s!"READ {i}"
  IO.println s!"tables: {lexCases.length} + {parseCases.length} + {evalCases.length} cases, {bad} bad"
'''
    print(lean('tables.lean', text).strip())

WORLD = '''import Verif.Props.Docs
open L1
def W1 : World := ⟨sampleWorld.readFile, fun n => (n * 6364136223846793005 + 1442695040888963407) % 18446744073709551616 / 65536,
  fun _ l => if l == ["pwd"] then .ok ("/x\\n".toList, [], 0) else .error "file not found", sampleWorld.key, sampleWorld.size, sampleWorld.openScreen, sampleWorld.badNum,
  sampleWorld.upper, sampleWorld.lower, sampleWorld.digit, sampleWorld.width, sampleWorld.sorter⟩
'''

SMALLER = [(r'\(= 1000 \(len \(randigits 1000', '(= 20 (len (randigits 20'), (r'6765 \(fib 20', '610 (fib 15'), (r'2568 \(len \(split \(fact 1000', '19 (len (split (fact 20'),
           (r'\(= 1000 \(len \(split \(fuse \(randalpha 1000', '(= 20 (len (split (fuse (randalpha 20'), (r'\(\*\* 3 6093\)', '(** 3 93)')]

def forms_of(t):
    d = i = 0; cur = ''; res = []
    while i < len(t):
        c = t[i]
        if c == ';':
            while i < len(t) and t[i] != '\n': i += 1
            continue
        cur += c
        if c == '(': d += 1
        if c == ')':
            d -= 1
            if d == 0: res.append(cur.strip()); cur = ''
        i += 1
    return res

def tests():
    t = open('/repo/tests.l1').read()
    for a, b in SMALLER:
        t, n = re.subn(a, b, t); assert n == 1, a
    fs = []
    for k, x in enumerate(forms_of(t)):
        p = os.path.join(TMP, f'{k:03}.l1'); open(p, 'w').write(x); fs.append(p)
    text = WORLD + '''def main (args : List String) : IO Unit := do
  let mut st := topSt (initSt []) coreEnv
  for a in args do
    match readText (← IO.FS.readFile a).toList with
    | .ok xs =>
      for x in xs do
        match run W1 20000 4000 (.eval x 0) st with
        | .ok _ s => IO.println "ok"; st := s
        | .err e _ => IO.println s!"{a}: {String.ofList e.str}"
        | .exit c s => IO.println s!"exit {c}"; st := s
        | _ => IO.println s!"{a}: no value"
    | _ => IO.println s!"{a}: not read"
'''
    res = lean('tests.lean', text, *fs).strip().split('\n')
    print(f'tests.l1: {len(fs)} forms, {res.count("ok")} evaluated without error;', *[x for x in res if x != 'ok'])

def docs():
    text = WORLD + '''def main (args : List String) : IO Unit := do
  let st := topSt (initSt []) coreEnv
  match (if args == ["-doc"] then shortDoc W1 (run W1 4000 4000) 0 st else longDoc W1 (run W1 4000 4000) 0 st) with
  | .ok _ s => IO.print (String.ofList s.out)
  | .exit _ s => IO.print (String.ofList s.out)
  | _ => IO.println "no exit"
'''
    def cmp(name, got, want):
        got, want = got.rstrip('\n').split('\n'), want.rstrip('\n').split('\n')
        bad = sum(a != b for a, b in zip(got, want)) + abs(len(got) - len(want))
        print(f'{name}: {len(want)} lines, {bad} different')
    cmp('api.md', lean('docs.lean', text, '-longdoc'), open('/repo/api.md').read())
    want = go('examples.txt').split('> (help)\n')[1].split('\n> ^D')[0]
    cmp('help', lean('docs.lean', text, '-doc').replace(' <nil>\n', '\n'), want)   # main.go:86 also prints the nil error

if __name__ == "__main__": [globals()[f]() for f in (sys.argv[2:] or ["tables", "docs", "tests"])]
