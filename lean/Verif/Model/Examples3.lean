import Verif.Model.CoreLib
/-
GENERATED by scripts/gen_examples.py from /repo/examples; do not edit.
Example programs of the repository: their text, line by line; the forms; and the functions they define.
-/
set_option autoImplicit false
namespace L1

/-- The lines of examples/fuzz-legal.l1. -/
def fuzzLegalLines : List String := [
  "#!/usr/bin/env l1",
  "",
  ";; fuzzing variant which only creates and evaluates legally evaluable expressions.",
  "",
  "(defn one-of (() . xs)",
  "  (randchoice xs))",
  "",
  "(defn randpos (n) (inc (randint (inc n))))",
  "",
  "(defn cool (x) (/ x 2))",
  "",
  "(defn randnum (n) (fuse (randigits (randpos n))))",
  "",
  "(defn num (n)",
  "  ((one-of randnum",
  "           arith",
  "           dolen)",
  "   (cool n)))",
  "",
  "(defn nums (n)",
  "  (repeatedly (randint n) (partial num n)))",
  "",
  "(defn atom (n)",
  "  (fuse (randalpha (randpos n))))",
  "",
  "(defn atoms (n)",
  "  (repeatedly (randpos n) (partial atom n)))",
  "",
  "(defn quoteatom (n)",
  "  (list 'quote (atom n)))",
  "",
  "(defn nums (n)",
  "  (repeatedly (randpos n)",
  "              (partial num n)))",
  "",
  "(defn /not0 (x . xs)",
  "  (doc (do not divide by zero))",
  "  (let ((divisor (apply * xs)))",
  "    (if (zero? divisor)",
  "      1",
  "      (/ x divisor))))",
  "",
  "(defn arith (n)",
  "  (list* (one-of '+ '- '* '/not0)",
  "         (nums (cool n))))",
  "",
  "(defn quote-atom (n)",
  "  `(quote ~(atom n)))",
  "",
  "(defn quote-list (n)",
  "  (list 'quote ((one-of range",
  "                        nums)",
  "                (cool n))))",
  "",
  "(defn boolean (_)",
  "  (one-of t ()))",
  "",
  "(defn dolen (n)",
  "  (list 'len ((one-of quote-list",
  "                      dosplit)",
  "              (cool n))))",
  "",
  "(defn dosplit (n)",
  "  (list 'split",
  "        ((one-of quote-atom num) n)))",
  "",
  "(defn expr (n)",
  "  ((one-of arith",
  "           quote-atom",
  "           quote-list",
  "           dolen",
  "           boolean)",
  "   n))",
  "",
  "(while t",
  "  (let ((e (expr 100)))",
  "    (println e",
  "             '==>",
  "             (eval e))",
  "    (println)))",
  ""]

/-- The text of examples/fuzz-legal.l1. -/
def fuzzLegalText : List Char := joinNl (fuzzLegalLines.map String.toList)

/-- The forms of examples/fuzz-legal.l1. -/
def fuzzLegalForms : List Val := [
  vlist [.atom "defn", .atom "one-of", mkList [.nil] (.atom "xs"), vlist [.atom "randchoice", .atom "xs"]],
  vlist [.atom "defn", .atom "randpos", vlist [.atom "n"], vlist [.atom "inc", vlist [.atom "randint", vlist [.atom "inc", .atom "n"]]]],
  vlist [.atom "defn", .atom "cool", vlist [.atom "x"], vlist [.atom "/", .atom "x", .num 2]],
  vlist [.atom "defn", .atom "randnum", vlist [.atom "n"], vlist [.atom "fuse", vlist [.atom "randigits", vlist [.atom "randpos", .atom "n"]]]],
  vlist [.atom "defn", .atom "num", vlist [.atom "n"], vlist [vlist [.atom "one-of", .atom "randnum", .atom "arith", .atom "dolen"], vlist [.atom "cool", .atom "n"]]],
  vlist [.atom "defn", .atom "nums", vlist [.atom "n"], vlist [.atom "repeatedly", vlist [.atom "randint", .atom "n"], vlist [.atom "partial", .atom "num", .atom "n"]]],
  vlist [.atom "defn", .atom "atom", vlist [.atom "n"], vlist [.atom "fuse", vlist [.atom "randalpha", vlist [.atom "randpos", .atom "n"]]]],
  vlist [.atom "defn", .atom "atoms", vlist [.atom "n"], vlist [.atom "repeatedly", vlist [.atom "randpos", .atom "n"], vlist [.atom "partial", .atom "atom", .atom "n"]]],
  vlist [.atom "defn", .atom "quoteatom", vlist [.atom "n"], vlist [.atom "list", vlist [.atom "quote", .atom "quote"], vlist [.atom "atom", .atom "n"]]],
  vlist [.atom "defn", .atom "nums", vlist [.atom "n"], vlist [.atom "repeatedly", vlist [.atom "randpos", .atom "n"], vlist [.atom "partial", .atom "num", .atom "n"]]],
  vlist [.atom "defn", .atom "/not0", mkList [.atom "x"] (.atom "xs"), vlist [.atom "doc", vlist [.atom "do", .atom "not", .atom "divide", .atom "by", .atom "zero"]], vlist [.atom "let", vlist [vlist [.atom "divisor", vlist [.atom "apply", .atom "*", .atom "xs"]]], vlist [.atom "if", vlist [.atom "zero?", .atom "divisor"], .num 1, vlist [.atom "/", .atom "x", .atom "divisor"]]]],
  vlist [.atom "defn", .atom "arith", vlist [.atom "n"], vlist [.atom "list*", vlist [.atom "one-of", vlist [.atom "quote", .atom "+"], vlist [.atom "quote", .atom "-"], vlist [.atom "quote", .atom "*"], vlist [.atom "quote", .atom "/not0"]], vlist [.atom "nums", vlist [.atom "cool", .atom "n"]]]],
  vlist [.atom "defn", .atom "quote-atom", vlist [.atom "n"], vlist [.atom "syntax-quote", vlist [.atom "quote", vlist [.atom "unquote", vlist [.atom "atom", .atom "n"]]]]],
  vlist [.atom "defn", .atom "quote-list", vlist [.atom "n"], vlist [.atom "list", vlist [.atom "quote", .atom "quote"], vlist [vlist [.atom "one-of", .atom "range", .atom "nums"], vlist [.atom "cool", .atom "n"]]]],
  vlist [.atom "defn", .atom "boolean", vlist [.atom "_"], vlist [.atom "one-of", .atom "t", .nil]],
  vlist [.atom "defn", .atom "dolen", vlist [.atom "n"], vlist [.atom "list", vlist [.atom "quote", .atom "len"], vlist [vlist [.atom "one-of", .atom "quote-list", .atom "dosplit"], vlist [.atom "cool", .atom "n"]]]],
  vlist [.atom "defn", .atom "dosplit", vlist [.atom "n"], vlist [.atom "list", vlist [.atom "quote", .atom "split"], vlist [vlist [.atom "one-of", .atom "quote-atom", .atom "num"], .atom "n"]]],
  vlist [.atom "defn", .atom "expr", vlist [.atom "n"], vlist [vlist [.atom "one-of", .atom "arith", .atom "quote-atom", .atom "quote-list", .atom "dolen", .atom "boolean"], .atom "n"]],
  vlist [.atom "while", .atom "t", vlist [.atom "let", vlist [vlist [.atom "e", vlist [.atom "expr", .num 100]]], vlist [.atom "println", .atom "e", vlist [.atom "quote", .atom "==>"], vlist [.atom "eval", .atom "e"]], vlist [.atom "println"]]]]

/-- `one-of`, examples/fuzz-legal.l1:5, as a function value. -/
def f_one_of : Val := .lam [] "xs" (vlist [vlist [.atom "randchoice", .atom "xs"]]) .nil false 0

/-- `randpos`, examples/fuzz-legal.l1:8, as a function value. -/
def f_randpos : Val := .lam ["n"] "" (vlist [vlist [.atom "inc", vlist [.atom "randint", vlist [.atom "inc", .atom "n"]]]]) .nil false 0

/-- `cool`, examples/fuzz-legal.l1:10, as a function value. -/
def f_cool : Val := .lam ["x"] "" (vlist [vlist [.atom "/", .atom "x", .num 2]]) .nil false 0

/-- `randnum`, examples/fuzz-legal.l1:12, as a function value. -/
def f_randnum : Val := .lam ["n"] "" (vlist [vlist [.atom "fuse", vlist [.atom "randigits", vlist [.atom "randpos", .atom "n"]]]]) .nil false 0

/-- `num`, examples/fuzz-legal.l1:14, as a function value. -/
def f_num : Val := .lam ["n"] "" (vlist [vlist [vlist [.atom "one-of", .atom "randnum", .atom "arith", .atom "dolen"], vlist [.atom "cool", .atom "n"]]]) .nil false 0

/-- `atom`, examples/fuzz-legal.l1:23, as a function value. -/
def f_atom : Val := .lam ["n"] "" (vlist [vlist [.atom "fuse", vlist [.atom "randalpha", vlist [.atom "randpos", .atom "n"]]]]) .nil false 0

/-- `atoms`, examples/fuzz-legal.l1:26, as a function value. -/
def f_atoms : Val := .lam ["n"] "" (vlist [vlist [.atom "repeatedly", vlist [.atom "randpos", .atom "n"], vlist [.atom "partial", .atom "atom", .atom "n"]]]) .nil false 0

/-- `quoteatom`, examples/fuzz-legal.l1:29, as a function value. -/
def f_quoteatom : Val := .lam ["n"] "" (vlist [vlist [.atom "list", vlist [.atom "quote", .atom "quote"], vlist [.atom "atom", .atom "n"]]]) .nil false 0

/-- `nums`, examples/fuzz-legal.l1:32, as a function value. -/
def f_nums : Val := .lam ["n"] "" (vlist [vlist [.atom "repeatedly", vlist [.atom "randpos", .atom "n"], vlist [.atom "partial", .atom "num", .atom "n"]]]) .nil false 0

/-- `/not0`, examples/fuzz-legal.l1:36, as a function value. -/
def f_slashnot0 : Val := .lam ["x"] "xs" (vlist [vlist [.atom "let", vlist [vlist [.atom "divisor", vlist [.atom "apply", .atom "*", .atom "xs"]]], vlist [.atom "if", vlist [.atom "zero?", .atom "divisor"], .num 1, vlist [.atom "/", .atom "x", .atom "divisor"]]]]) (vlist [vlist [.atom "do", .atom "not", .atom "divide", .atom "by", .atom "zero"]]) false 0

/-- `arith`, examples/fuzz-legal.l1:43, as a function value. -/
def f_arith : Val := .lam ["n"] "" (vlist [vlist [.atom "list*", vlist [.atom "one-of", vlist [.atom "quote", .atom "+"], vlist [.atom "quote", .atom "-"], vlist [.atom "quote", .atom "*"], vlist [.atom "quote", .atom "/not0"]], vlist [.atom "nums", vlist [.atom "cool", .atom "n"]]]]) .nil false 0

/-- `quote-atom`, examples/fuzz-legal.l1:47, as a function value. -/
def f_quote_atom : Val := .lam ["n"] "" (vlist [vlist [.atom "syntax-quote", vlist [.atom "quote", vlist [.atom "unquote", vlist [.atom "atom", .atom "n"]]]]]) .nil false 0

/-- `quote-list`, examples/fuzz-legal.l1:50, as a function value. -/
def f_quote_list : Val := .lam ["n"] "" (vlist [vlist [.atom "list", vlist [.atom "quote", .atom "quote"], vlist [vlist [.atom "one-of", .atom "range", .atom "nums"], vlist [.atom "cool", .atom "n"]]]]) .nil false 0

/-- `boolean`, examples/fuzz-legal.l1:55, as a function value. -/
def f_boolean : Val := .lam ["_"] "" (vlist [vlist [.atom "one-of", .atom "t", .nil]]) .nil false 0

/-- `dolen`, examples/fuzz-legal.l1:58, as a function value. -/
def f_dolen : Val := .lam ["n"] "" (vlist [vlist [.atom "list", vlist [.atom "quote", .atom "len"], vlist [vlist [.atom "one-of", .atom "quote-list", .atom "dosplit"], vlist [.atom "cool", .atom "n"]]]]) .nil false 0

/-- `dosplit`, examples/fuzz-legal.l1:63, as a function value. -/
def f_dosplit : Val := .lam ["n"] "" (vlist [vlist [.atom "list", vlist [.atom "quote", .atom "split"], vlist [vlist [.atom "one-of", .atom "quote-atom", .atom "num"], .atom "n"]]]) .nil false 0

/-- `expr`, examples/fuzz-legal.l1:67, as a function value. -/
def f_expr : Val := .lam ["n"] "" (vlist [vlist [vlist [.atom "one-of", .atom "arith", .atom "quote-atom", .atom "quote-list", .atom "dolen", .atom "boolean"], .atom "n"]]) .nil false 0

end L1
