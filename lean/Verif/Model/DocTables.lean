import Verif.Model.Builtins
/-
Documentation fields of the native functions and special forms, used by `doc`, `forms` and `help`.
GENERATED by scripts/gen_docs.py from /repo/lisp/builtin.go:206-1316 and /repo/lisp/doc.go:32-350.
-/
set_option autoImplicit false
namespace L1

/-- The documentation fields of `Builtin` (lisp/builtin.go:54-60). -/
structure BIDoc where
  fixedArity : Nat
  nary : Bool
  doc : String
  args : Val
  examples : List Val

/-- The fields as written in lisp/builtin.go:206-1316 (line of each entry in its comment). `doc` is the
argument of `DOC`. -/
def biDoc : BI → BIDoc
  | .add => -- builtin.go:207
    ⟨0, true, "Add 0 or more numbers", (.cons .nil (.atom "xs")),
      [(vlist [(.atom "+"), (.num 1), (.num 2), (.num 3)]),
       (vlist [(.atom "+")])]⟩
  | .sub => -- builtin.go:232
    ⟨1, true, "Subtract 0 or more numbers from the first argument", (.cons (.atom "x") (.atom "xs")),
      [(vlist [(.atom "-"), (.num 1), (.num 1)]),
       (vlist [(.atom "-"), (.num 5), (.num 2), (.num 1)]),
       (vlist [(.atom "-"), (.num 99)])]⟩
  | .mul => -- builtin.go:264
    ⟨0, true, "Multiply 0 or more numbers", (.cons .nil (.atom "xs")),
      [(vlist [(.atom "*"), (.num 1), (.num 2), (.num 3)]),
       (vlist [(.atom "*")])]⟩
  | .div => -- builtin.go:289
    ⟨2, true, "Divide the first argument by the rest", (.cons (.atom "numerator") (.cons (.atom "denominator1") (.atom "more"))),
      [(vlist [(.atom "/"), (.num 1), (.num 2)]),
       (vlist [(.atom "/"), (.num 12), (.num 2), (.num 3)]),
       (vlist [(.atom "/"), (.num 1), (.num 0)])]⟩
  | .eq => -- builtin.go:321
    ⟨1, true, "Return t if the arguments are equal, () otherwise", (.cons (.atom "x") (.atom "xs")),
      [(vlist [(.atom "="), (.num 1), (.num 1)]),
       (vlist [(.atom "="), (.num 1), (.num 2)]),
       (vlist [(.atom "apply"), (.atom "="), (vlist [(.atom "repeat"), (.num 10), (.atom "t")])])]⟩
  | .rem => -- builtin.go:344
    ⟨2, false, "Return remainder when second arg divides first", (vlist [(.atom "x"), (.atom "y")]),
      [(vlist [(.atom "rem"), (.num 5), (.num 2)]),
       (vlist [(.atom "rem"), (.num 4), (.num 2)]),
       (vlist [(.atom "rem"), (.num 1), (.num 0)])]⟩
  | .lt => -- builtin.go:373
    ⟨1, true, "Return t if the arguments are in strictly increasing order, () otherwise", (.cons (.atom "x") (.atom "xs")),
      [(vlist [(.atom "<"), (.num 1), (.num 2)]),
       (vlist [(.atom "<"), (.num 1), (.num 1)]),
       (vlist [(.atom "<"), (.num 1)]),
       (vlist [(.atom "apply"), (.atom "<"), (vlist [(.atom "range"), (.num 100)])])]⟩
  | .le => -- builtin.go:391
    ⟨1, true, "Return t if the arguments are in increasing or equal order, () otherwise", (.cons (.atom "x") (.atom "xs")),
      [(vlist [(.atom "<="), (.num 1), (.num 2)]),
       (vlist [(.atom "<="), (.num 1), (.num 1)]),
       (vlist [(.atom "<="), (.num 1)])]⟩
  | .gt => -- builtin.go:408
    ⟨1, true, "Return t if the arguments are in strictly decreasing order, () otherwise", (.cons (.atom "x") (.atom "xs")),
      [(vlist [(.atom ">"), (.num 1), (.num 2)]),
       (vlist [(.atom ">"), (.num 1), (.num 1)]),
       (vlist [(.atom ">"), (.num 1)])]⟩
  | .ge => -- builtin.go:425
    ⟨1, true, "Return t if the arguments are in decreasing or equal order, () otherwise", (.cons (.atom "x") (.atom "xs")),
      [(vlist [(.atom ">="), (.num 1), (.num 2)]),
       (vlist [(.atom ">="), (.num 1), (.num 1)])]⟩
  | .apply => -- builtin.go:441
    ⟨2, false, "Apply a function to a list of arguments", (vlist [(.atom "f"), (.atom "args")]),
      [(vlist [(.atom "apply"), (.atom "+"), (vlist [(.atom "repeat"), (.num 10), (.num 1)])]),
       (vlist [(.atom "apply"), (.atom "*"), (vlist [(.atom "cdr"), (vlist [(.atom "range"), (.num 10)])])])]⟩
  | .atomP => -- builtin.go:453
    ⟨1, false, "Return t if the argument is an atom, () otherwise", (vlist [(.atom "x")]),
      [(vlist [(.atom "atom?"), (.num 1)]),
       (vlist [(.atom "atom?"), (vlist [.atom "quote", .atom "one"])])]⟩
  | .body => -- builtin.go:473
    ⟨1, false, "Return the body of a lambda function", (vlist [(.atom "f")]),
      [(vlist [(.atom "body"), (vlist [(.atom "lambda"), (vlist [(.atom "x")]), (vlist [(.atom "+"), (.atom "x"), (.num 1)])])])]⟩
  | .car => -- builtin.go:493
    ⟨1, false, "Return the first element of a list", (vlist [(.atom "x")]),
      [(vlist [(.atom "car"), (vlist [.atom "quote", vlist [(.atom "one"), (.atom "two")]])]),
       (vlist [(.atom "car"), (vlist [])])]⟩
  | .cdr => -- builtin.go:517
    ⟨1, false, "Return a list with the first element removed", (vlist [(.atom "x")]),
      [(vlist [(.atom "cdr"), (vlist [.atom "quote", vlist [(.atom "one"), (.atom "two")]])]),
       (vlist [(.atom "cdr"), (vlist [])])]⟩
  | .cons => -- builtin.go:542
    ⟨2, false, "Add an element to the front of a (possibly empty) list", (vlist [(.atom "x"), (.atom "xs")]),
      [(vlist [(.atom "cons"), (.num 1), (vlist [.atom "quote", vlist [(.atom "one"), (.atom "two")]])]),
       (vlist [(.atom "cons"), (.num 1), (vlist [])]),
       (vlist [(.atom "cons"), (.num 1), (.num 2)])]⟩
  | .doc => -- builtin.go:560
    ⟨1, false, "Return the doclist for a function", (vlist [(.atom "x")]),
      [(vlist [(.atom "doc"), (vlist [(.atom "lambda"), (vlist [(.atom "x")]), (vlist [(.atom "doc"), (vlist [(.atom "does"), (.atom "stuff")]), (vlist [(.atom "and"), (.atom "other"), (.atom "stuff")])]), (vlist [(.atom "+"), (.atom "x"), (.num 1)])])])]⟩
  | .downcase => -- builtin.go:587
    ⟨1, false, "Return a new atom with all characters in lower case", (vlist [(.atom "x")]),
      [(vlist [(.atom "downcase"), (vlist [.atom "quote", .atom "Hello"])]),
       (vlist [(.atom "downcase"), (vlist [.atom "quote", .atom "HELLO"])])]⟩
  | .eval => -- builtin.go:608
    ⟨1, false, "Evaluate an expression", (vlist [(.atom "x")]),
      [(vlist [(.atom "eval"), (vlist [.atom "quote", vlist [(.atom "one"), (.atom "two")]])]),
       (vlist [(.atom "eval"), (vlist [.atom "quote", vlist [(.atom "+"), (.num 1), (.num 2)]])])]⟩
  | .exit => -- builtin.go:625
    ⟨0, false, "Exit the program", .nil,
      []⟩
  | .forms => -- builtin.go:636
    ⟨0, false, "Return available operators, as a list", .nil,
      []⟩
  | .fuse => -- builtin.go:650
    ⟨1, false, "Fuse a list of numbers or atoms into a single atom", (vlist [(.atom "x")]),
      [(vlist [(.atom "fuse"), (vlist [.atom "quote", vlist [(.atom "A"), (.atom "B"), (.atom "C")]])]),
       (vlist [(.atom "fuse"), (vlist [(.atom "reverse"), (vlist [(.atom "range"), (.num 10)])])])]⟩
  | .gensym => -- builtin.go:690
    ⟨0, true, "Return a new symbol", (.cons .nil (.atom "more")),
      []⟩
  | .help => -- builtin.go:710
    ⟨0, false, "Print a help message", .nil,
      []⟩
  | .isqrt => -- builtin.go:721
    ⟨1, false, "Integer square root", (vlist [(.atom "x")]),
      [(vlist [(.atom "isqrt"), (.num 4)]),
       (vlist [(.atom "isqrt"), (.num 5)])]⟩
  | .len => -- builtin.go:745
    ⟨1, false, "Return the length of a list", (vlist [(.atom "x")]),
      [(vlist [(.atom "len"), (vlist [(.atom "range"), (.num 10)])])]⟩
  | .list => -- builtin.go:770
    ⟨0, true, "Return a list of the given arguments", (.cons .nil (.atom "xs")),
      [(vlist [(.atom "list"), (.num 1), (.num 2), (.num 3)]),
       (vlist [(.atom "list")])]⟩
  | .listP => -- builtin.go:784
    ⟨1, false, "Return t if the argument is a list, () otherwise", (vlist [(.atom "x")]),
      [(vlist [(.atom "list?"), (vlist [(.atom "range"), (.num 10)])]),
       (vlist [(.atom "list?"), (.num 1)])]⟩
  | .load => -- builtin.go:804
    ⟨1, false, "Load and execute a file", (vlist [(.atom "filename")]),
      []⟩
  | .macroexpand1 => -- builtin.go:825
    ⟨1, false, "Expand a macro", (vlist [(.atom "x")]),
      [(vlist [(.atom "macroexpand-1"), (vlist [.atom "quote", vlist [(.atom "+"), (.atom "x"), (.num 1)]])]),
       (vlist [(.atom "macroexpand-1"), (vlist [.atom "quote", vlist [(.atom "if"), (vlist []), (.num 1), (.num 2)]])])]⟩
  | .not => -- builtin.go:842
    ⟨1, false, "Return t if the argument is nil, () otherwise", (vlist [(.atom "x")]),
      [(vlist [(.atom "not"), (vlist [])]),
       (vlist [(.atom "not"), (.atom "t")]),
       (vlist [(.atom "not"), (vlist [(.atom "range"), (.num 10)])])]⟩
  | .numberP => -- builtin.go:863
    ⟨1, false, "Return true if the argument is a number, else ()", (vlist [(.atom "x")]),
      [(vlist [(.atom "number?"), (.num 1)]),
       (vlist [(.atom "number?"), (.atom "t")]),
       (vlist [(.atom "number?"), (.atom "+")])]⟩
  | .print => -- builtin.go:885
    ⟨0, true, "Print the arguments", (.cons .nil (.atom "xs")),
      []⟩
  | .println => -- builtin.go:900
    ⟨0, true, "Print the arguments and a newline", (.cons .nil (.atom "xs")),
      []⟩
  | .printl => -- builtin.go:915
    ⟨1, false, "Print a list argument, without parentheses", (vlist [(.atom "x")]),
      []⟩
  | .randint => -- builtin.go:933
    ⟨1, false, "Return a random integer between 0 and the argument minus 1", (vlist [(.atom "x")]),
      []⟩
  | .readlist => -- builtin.go:954
    ⟨0, false, "Read a list from stdin", .nil,
      []⟩
  | .screenStart => -- builtin.go:972
    ⟨0, false, "Start screen for text UIs", .nil,
      []⟩
  | .screenEnd => -- builtin.go:986
    ⟨0, false, "Stop screen for text UIs, return to console mode", .nil,
      []⟩
  | .screenSize => -- builtin.go:1000
    ⟨0, false, "Return the screen size: width, height", .nil,
      []⟩
  | .screenClear => -- builtin.go:1014
    ⟨0, false, "Clear the screen", .nil,
      []⟩
  | .screenGetKey => -- builtin.go:1028
    ⟨0, false, "Return a keystroke as an atom", .nil,
      []⟩
  | .screenWrite => -- builtin.go:1045
    ⟨3, false, "Write a string to the screen", (vlist [(.atom "x"), (.atom "y"), (.atom "list")]),
      []⟩
  | .shell => -- builtin.go:1074
    ⟨1, false, "Run a shell subprocess, and return stdout, stderr, and exit code", (vlist [(.atom "cmd")]),
      []⟩
  | .shuffle => -- builtin.go:1087
    ⟨1, false, "Return a (quickly!) shuffled list", (vlist [(.atom "xs")]),
      []⟩
  | .sleep => -- builtin.go:1111
    ⟨1, false, "Sleep for the given number of milliseconds", (vlist [(.atom "ms")]),
      []⟩
  | .sort => -- builtin.go:1129
    ⟨1, false, "Sort a list", (vlist [(.atom "xs")]),
      [(vlist [(.atom "sort"), (vlist [.atom "quote", vlist [(.num 3), (.num 2), (.num 1)]])]),
       (vlist [(.atom "sort"), (vlist [.atom "quote", vlist []])]),
       (vlist [(.atom "sort"), (vlist [.atom "quote", vlist [(.atom "c"), (.atom "b"), (.atom "a")]])])]⟩
  | .sortBy => -- builtin.go:1175
    ⟨2, false, "Sort a list by a function", (vlist [(.atom "f"), (.atom "xs")]),
      [(vlist [(.atom "sort-by"), (.atom "first"), (vlist [.atom "quote", vlist [(vlist [(.num 3)]), (vlist [(.num 2)]), (vlist [(.num 1)])]])]),
       (vlist [(.atom "sort-by"), (.atom "first"), (vlist [.atom "quote", vlist []])]),
       (vlist [(.atom "sort-by"), (.atom "second"), (vlist [.atom "quote", vlist [(vlist [(.atom "quux"), (.num 333)]), (vlist [(.atom "zip"), (.num 222)]), (vlist [(.atom "afar"), (.num 111)])]])])]⟩
  | .source => -- builtin.go:1231
    ⟨1, false, "Show source for a function", (vlist [(.atom "form")]),
      [(vlist [(.atom "source"), (.atom "map")]),
       (vlist [(.atom "source"), (.atom "+")])]⟩
  | .split => -- builtin.go:1258
    ⟨1, false, "Split an atom or number into a list of single-digit numbers or single-character atoms", (vlist [(.atom "x")]),
      [(vlist [(.atom "split"), (.num 123)]),
       (vlist [(.atom "split"), (vlist [.atom "quote", .atom "abc"])])]⟩
  | .upcase => -- builtin.go:1282
    ⟨1, false, "Return the uppercase version of the given atom", (vlist [(.atom "x")]),
      [(vlist [(.atom "upcase"), (vlist [.atom "quote", .atom "abc"])])]⟩
  | .version => -- builtin.go:1302
    ⟨0, false, "Return the version of the interpreter", .nil,
      [(vlist [(.atom "version")])]⟩

/-- `capitalize`, lisp/util.go:61-64 (on the empty string the decoded rune is U+FFFD). -/
def capitalizeC (W : World) : List Char → List Char
  | [] => ['�']
  | c :: cs => upperC W c :: cs

/-- `DOC(s).car` = the list of the words of `capitalize(s)`, lisp/builtin.go:203-205, util.go:44-46. -/
def biDocList (W : World) (b : BI) : Val :=
  atomList (splitOnChar ' ' (capitalizeC W (biDoc b).doc.toList))

/-- `doc`, lisp/builtin.go:573-585. -/
def bDoc (W : World) : List Val → M Val
  | [.lam _ _ _ d _ _] => pure d
  | [.bi b] => pure (biDocList W b)
  | [v] => throwBase (fmt1 "'" v "' is not a function")
  | _ => throwBase "missing argument"

/-- `specialForms`, lisp/doc.go:32-350: name, arity, `ismulti`, documentation, arguments. -/
def specialDocs : List (String × Nat × Bool × String × Val) :=
  [("and", 0, true, "Boolean and", (.cons .nil (.atom "xs"))),
   ("cond", 0, true, "Fundamental branching construct", (.cons .nil (.atom "pairs"))),
   ("def", 2, false, "Set a value", (vlist [(.atom "name"), (.atom "value")])),
   ("defn", 2, true, "Create and name a function", (.cons (.atom "name") (.cons (.atom "args") (.atom "body")))),
   ("defmacro", 2, true, "Create and name a macro", (.cons (.atom "name") (.cons (.atom "args") (.atom "body")))),
   ("error", 1, false, "Raise an error", (vlist [(.atom "l")])),
   ("errors", 1, true, "Error checking, for tests", (.cons (.atom "expected") (.atom "body"))),
   ("lambda", 1, true, "Create a function", (.cons (.atom "args") (.atom "more"))),
   ("let", 1, true, "Create a local scope with bindings", (.cons (.atom "binding-pairs") (.atom "body"))),
   ("loop", 1, true, "Loop forever", .nil),
   ("or", 0, true, "Boolean or", (.cons .nil (.atom "xs"))),
   ("quote", 1, false, "Quote an expression", (vlist [(.atom "x")])),
   ("set!", 2, false, "Update a value in an existing binding", (vlist [(.atom "name"), (.atom "value")])),
   ("swallow", 0, true, "Swallow errors thrown in body, return t if any occur", (.cons .nil (.atom "body"))),
   ("syntax-quote", 1, false, "Syntax-quote an expression", (vlist [(.atom "x")])),
   ("try", 0, true, "Try to evaluate body, catch errors and handle them", (.cons .nil (.atom "body"))),
   ("test", 0, true, "Run tests", (.cons .nil (.atom "body")))]

/-- The texts of the examples of `specialForms`, lisp/doc.go:32-350. -/
def specialExamples : List (String × String) :=
  [("and", "(and)\n;;=>\ntrue\n> (and t t)\n;;=>\ntrue\n> (and t t ())\n;;=>\n()\n> (and () (/ 1 0))\n;;=>\n()\n"),
   ("cond", "> (cond)\n;;=> ()\n> (cond (t 1) (t 2) (t 3))\n;;=> 1\n> (cond (() 1) (t 2))\n;;=> 2\n"),
   ("def", "> (def a 1)\n;;=>\n1\n> a\n;;=>\n1\n"),
   ("defn", "> (defn add (x y) (+ x y))\n;;=>\n()\n> (add 1 2)\n;;=>\n3\n> (defn add (x y)\n    (doc (add two numbers)\n         (examples\n           (add 1 2)))\n    (+ x y))\n;;=>\n()\n> (doc add)\n;;=>\n((add two numbers) (examples (add 1 2)))\n"),
   ("defmacro", "> (defmacro ignore-car (l)\n    (doc (ignore first element of list,\n                 treat rest as normal expression)\n         (examples\n           (ignore-car (adorable + 1 2 3))\n           (ignore-car (deplorable - 4 4))))\n    (cdr l))\n;;=>\n()\n> (ignore-car (hilarious * 2 3 4))\n;;=>\n24\n\t"),
   ("error", "> (defn ensure-list (x)\n    (when-not (list? x)\n      (error '(ensure-list argument not a list!))))\n;;=>\n()\n> (ensure-list 3)\n;;=>\nERROR in '(ensure-list 3)':\n(ensure-list argument not a list!)\n"),
   ("errors", "> (errors '(is not a function)\n    (1))\n;;=>\n()\n> (errors '(is not a function)\n    (+))\n;;=>\nERROR in '(errors (quote (is not a function)) (+))':\nerror not found in ((quote (is not a function)) (+))\n"),
   ("lambda", "> ((lambda () t))\n;;=>\nt\n> ((lambda (x) (+ 5 x)) 5)\n;;=>\n10\n> ((lambda my-length (x)\n     (if-not x\n       0\n       (+ 1 (my-length (cdr x)))))\n    (range 20))\n;;=>\n20\n"),
   ("let", "> (let ((a 1)\n        (b 2))\n    (+ a b))\n;;=>\n3\n"),
   ("loop", "> (loop\n    (printl '(Help me, I am looping forever!))\n    (sleep 1000))\n;; Prints =>\nHelp me, I am looping forever!\nHelp me, I am looping forever!\nHelp me, I am looping forever!\n...\n"),
   ("or", "> (or)\n;; => false\n> (or t t)\n;; => true\n> (or t t ())\n;; => t"),
   ("quote", "> (quote foo)\nfoo\n> (quote (1 2 3))\n(1 2 3)\n> '(1 2 3)\n(1 2 3)\n"),
   ("set!", "> (def a 1)\n;;=>\n1\n> a\n;;=>\n1\n> (set! a 2)\n;;=>\n2\n> a\n;;=>\n2\n"),
   ("swallow", "> (swallow\n\t(error '(boom)))\n;;=>\nt\n> (swallow 1 2 3)\n;;=>\n()\n"),
   ("syntax-quote", "> (syntax-quote foo)\nfoo\n> (syntax-quote (1 2 3 4))\n(1 2 3 4)\n> (syntax-quote (1 (unquote (+ 1 1)) (splicing-unquote (list 3 4))))\n(1 2 3 4)\n> `(1 ~(+ 1 1) ~@(list 3 4))\n(1 2 3 4)\n"),
   ("try", "> (try (error '(boom)))\n;;=>\nERROR:\n((boom))\n> (try\n    (error '(boom))\n    (catch e\n      (printl e)))\n;;=>\n(boom)\n> (try (/ 1 0) (catch e (len e)))\n2\n>\n"),
   ("test", "")]

end L1
