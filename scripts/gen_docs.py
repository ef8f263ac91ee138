#!/usr/bin/env python3
"""Generate lean/Verif/Model/DocTables.lean from /repo/lisp/builtin.go and doc.go (documentation fields)."""
import re,sys
src=open('/repo/lisp/builtin.go').read()
lines=src.split('\n')
model=open('/verif/lean/Verif/Model/Syntax.lean').read()
names=dict((n,c) for c,n in re.findall(r'\.(\w+) => "([^"]+)"',model.split('def BI.name')[1].split('def BI.all')[0]))
class P:
    def __init__(s,t): s.t=t; s.i=0
    def ws(s):
        while s.i<len(s.t) and s.t[s.i] in ' \t\n\r': s.i+=1
    def expr(s):
        s.ws()
        m=re.compile(r'"((?:[^"\\]|\\.)*)"').match(s.t,s.i)
        if m: s.i=m.end(); return ('str',m.group(1))
        m=re.compile(r'-?\d+').match(s.t,s.i)
        if m: s.i=m.end(); return ('int',int(m.group(0)))
        m=re.compile(r'\w+').match(s.t,s.i); n=m.group(0); s.i=m.end(); s.ws()
        if s.i<len(s.t) and s.t[s.i]=='(':
            s.i+=1; args=[]
            while True:
                s.ws()
                while s.t.startswith('//',s.i):
                    s.i=s.t.index('\n',s.i); s.ws()
                if s.t[s.i]==')': s.i+=1; break
                args.append(s.expr()); s.ws()
                if s.t[s.i]==',': s.i+=1
            return ('call',n,args)
        return ('id',n)
def L(e):
    k=e[0]
    if k=='id':
        assert e[1]=='Nil'; return '.nil'
    n,a=e[1],e[2]
    if n in('A','a','Atom'): return f'(.atom "{a[0][1]}")'
    if n=='N': return f'(.num {a[0][1] if a[0][1]>=0 else "(%d)"%a[0][1]})'
    if n in('LE','LC','E','list'): return '(vlist ['+', '.join(L(x) for x in a)+'])'
    if n=='QL': return '(vlist [.atom "quote", vlist ['+', '.join(L(x) for x in a)+']])'
    if n=='QA': return f'(vlist [.atom "quote", .atom "{a[0][1]}"])'
    if n in('C','Cons'): return f'(.cons {L(a[0])} {L(a[1])})'
    if n=='RO': return f'(.cons .nil (.atom "{a[0][1]}"))'
    raise Exception(e)
out=[]
# entries
ents=[]
for i,l in enumerate(lines):
    m=re.match(r'^\t\t"([^"]+)": \{$',l)
    if m: ents.append((i,m.group(1)))
recs=[]
for j,(i,nm) in enumerate(ents):
    end=ents[j+1][0] if j+1<len(ents) else 1316
    blk='\n'.join(lines[i:end])
    doc=re.search(r'Doc:\s+DOC\("([^"]*)"\)',blk).group(1)
    ar=int(re.search(r'FixedArity:\s+(\d+)',blk).group(1))
    na=re.search(r'NAry:\s+(\w+)',blk).group(1)
    am=re.search(r'Args:\s+',blk); args=L(P(blk[am.end():]).expr())
    em=re.search(r'Examples:\s+',blk)
    ex=[]
    if em:
        e=P(blk[em.end():]).expr(); assert e[1]=='E'; ex=[L(x) for x in e[2]]
    assert nm in names,nm
    recs.append((nm,names[nm],doc,ar,na,args,ex,i+1))
assert len(recs)==len(names),(len(recs),len(names))
# special forms
d=open('/repo/lisp/doc.go').read()
sp=d.split('var specialForms = []formRec{')[1].split('\nconst columnsFormat')[0]
sfs=[]
for b in re.split(r'\n\t\{\n',sp)[1:]:
    nm=re.search(r'name:\s+"([^"]+)"',b).group(1)
    ar=int(re.search(r'farity:\s+(\d+)',b).group(1)); mu=re.search(r'ismulti:\s+(\w+)',b).group(1)
    doc=re.search(r'convertStringToDoc\("([^"]*)"\)',b).group(1)
    am=re.search(r'\n\t\targs:\s+',b); args=L(P(b[am.end():]).expr())
    # a Go string: literals joined with +
    xm=re.search(r'examples:\s+((?:`[^`]*`|"[^"\\\\]*")(?:\s*\+\s*(?:`[^`]*`|"[^"\\\\]*"))*),\n',b)
    assert (xm is None)==('examples:' not in b)
    sfs.append((nm,ar,mu,doc,args,''.join(x[1:-1] for x in re.findall(r'`[^`]*`|"[^"\\\\]*"',xm.group(1))) if xm else ''))
esc=lambda t:t.replace('\\','\\\\').replace('"','\\"').replace('\n','\\n').replace('\t','\\t')
o=[]
o.append('''import Verif.Model.Builtins
/-
Documentation fields of the native functions and special forms, used by `doc`, `forms` and `help`.
GENERATED by scripts/gen_docs.py from /repo/lisp/builtin.go:206-1316 and /repo/lisp/doc.go:32-350.
-/
set_option autoImplicit false
namespace L1

/-- The documentation fields of `Builtin` (lisp/builtin.go:54-60). -/
structure BIDoc where
  fixedArity : Nat
  nary : Bool
  doc : String
  args : Val
  examples : List Val

/-- The fields as written in lisp/builtin.go:206-1316 (line of each entry in its comment). `doc` is the
argument of `DOC`. -/
def biDoc : BI → BIDoc''')
for nm,c,doc,ar,na,args,ex,ln in recs:
    o.append(f'  | .{c} => -- builtin.go:{ln}\n    ⟨{ar}, {na}, "{doc}", {args},\n      [{(","+chr(10)+"       ").join(ex)}]⟩')
o.append('''
/-- `capitalize`, lisp/util.go:61-64 (on the empty string the decoded rune is U+FFFD). -/
def capitalizeC (W : World) : List Char → List Char
  | [] => ['\uFFFD']
  | c :: cs => upperC W c :: cs

/-- `DOC(s).car` = the list of the words of `capitalize(s)`, lisp/builtin.go:203-205, util.go:44-46. -/
def biDocList (W : World) (b : BI) : Val :=
  atomList (splitOnChar ' ' (capitalizeC W (biDoc b).doc.toList))

/-- `doc`, lisp/builtin.go:573-585. -/
def bDoc (W : World) : List Val → M Val
  | [.lam _ _ _ d _ _] => pure d
  | [.bi b] => pure (biDocList W b)
  | [v] => throwBase (fmt1 "'" v "' is not a function")
  | _ => throwBase "missing argument"

/-- `specialForms`, lisp/doc.go:32-350: name, arity, `ismulti`, documentation, arguments. -/
def specialDocs : List (String × Nat × Bool × String × Val) :=
  [''' + ',\n   '.join(f'("{n}", {a}, {m}, "{d}", {g})' for n,a,m,d,g,x in sfs) + ''']

/-- The texts of the examples of `specialForms`, lisp/doc.go:32-350. -/
def specialExamples : List (String × String) :=
  [''' + ',\n   '.join(f'("{n}", "{esc(x)}")' for n,a,m,d,g,x in sfs) + ''']

end L1
''')
open('/verif/lean/Verif/Model/DocTables.lean','w').write('\n'.join(o))
