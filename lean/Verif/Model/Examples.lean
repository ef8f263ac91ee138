import Verif.Model.CoreLib
/-
GENERATED by scripts/gen_examples.py from /repo/examples; do not edit.
Example programs of the repository: their text, line by line; the forms; and the functions they define.
-/
set_option autoImplicit false
namespace L1

/-- The lines of examples/fact.l1. -/
def factLines : List String := [
  ";; Return the factorial of `n`:",
  "(defn fact (n)",
  "  (if (zero? n)",
  "    1",
  "    (* n (fact (- n 1)))))",
  "",
  "(println (fact 100))",
  ""]

/-- The text of examples/fact.l1. -/
def factText : List Char := joinNl (factLines.map String.toList)

/-- The forms of examples/fact.l1. -/
def factForms : List Val := [
  vlist [.atom "defn", .atom "fact", vlist [.atom "n"], vlist [.atom "if", vlist [.atom "zero?", .atom "n"], .num 1, vlist [.atom "*", .atom "n", vlist [.atom "fact", vlist [.atom "-", .atom "n", .num 1]]]]],
  vlist [.atom "println", vlist [.atom "fact", .num 100]]]

/-- `fact`, examples/fact.l1:2, as a function value. -/
def x_fact : Val := .lam ["n"] "" (vlist [vlist [.atom "if", vlist [.atom "zero?", .atom "n"], .num 1, vlist [.atom "*", .atom "n", vlist [.atom "fact", vlist [.atom "-", .atom "n", .num 1]]]]]) .nil false 0

/-- The lines of examples/primes.l1. -/
def primesLines : List String := [
  ";; Adapted from SICP Chapter 1.2",
  "",
  "(defn divides? (d x)",
  "  (zero? (rem x d)))",
  "",
  "(defn square (n) (* n n))",
  "",
  "(defn find-divisor (n test-divisor)",
  "  (cond ((> (square test-divisor) n) n)",
  "        ((divides? test-divisor n) test-divisor)",
  "        (t (find-divisor n (+ test-divisor 1)))))",
  "",
  "(defn smallest-divisor (n)",
  "  (find-divisor n 2))",
  "",
  "(defn prime? (n)",
  "  (= n (smallest-divisor n)))",
  "",
  "(prime? 28657)",
  "(prime? 514229)",
  "(prime? 433494437)",
  "(prime? 1329871359087)",
  "",
  ";; Don't do this with every build -- some numbers take a LONG time to",
  ";; test:",
  ";; (prime? (fuse (randigits 100)))",
  "",
  "(defn helper (ret count n)",
  "  (cond",
  "   ((zero? count) (reverse ret))",
  "   ((prime? n) (helper (cons n ret)",
  "                       (- count 1)",
  "                       (+ 1 n)))",
  "   (t (helper ret count (+ 1 n)))))",
  "",
  "(defn n-primes (num)",
  "  (helper () num 1))",
  "",
  "(println (n-primes 300))",
  ""]

/-- The text of examples/primes.l1. -/
def primesText : List Char := joinNl (primesLines.map String.toList)

/-- The forms of examples/primes.l1. -/
def primesForms : List Val := [
  vlist [.atom "defn", .atom "divides?", vlist [.atom "d", .atom "x"], vlist [.atom "zero?", vlist [.atom "rem", .atom "x", .atom "d"]]],
  vlist [.atom "defn", .atom "square", vlist [.atom "n"], vlist [.atom "*", .atom "n", .atom "n"]],
  vlist [.atom "defn", .atom "find-divisor", vlist [.atom "n", .atom "test-divisor"], vlist [.atom "cond", vlist [vlist [.atom ">", vlist [.atom "square", .atom "test-divisor"], .atom "n"], .atom "n"], vlist [vlist [.atom "divides?", .atom "test-divisor", .atom "n"], .atom "test-divisor"], vlist [.atom "t", vlist [.atom "find-divisor", .atom "n", vlist [.atom "+", .atom "test-divisor", .num 1]]]]],
  vlist [.atom "defn", .atom "smallest-divisor", vlist [.atom "n"], vlist [.atom "find-divisor", .atom "n", .num 2]],
  vlist [.atom "defn", .atom "prime?", vlist [.atom "n"], vlist [.atom "=", .atom "n", vlist [.atom "smallest-divisor", .atom "n"]]],
  vlist [.atom "prime?", .num 28657],
  vlist [.atom "prime?", .num 514229],
  vlist [.atom "prime?", .num 433494437],
  vlist [.atom "prime?", .num 1329871359087],
  vlist [.atom "defn", .atom "helper", vlist [.atom "ret", .atom "count", .atom "n"], vlist [.atom "cond", vlist [vlist [.atom "zero?", .atom "count"], vlist [.atom "reverse", .atom "ret"]], vlist [vlist [.atom "prime?", .atom "n"], vlist [.atom "helper", vlist [.atom "cons", .atom "n", .atom "ret"], vlist [.atom "-", .atom "count", .num 1], vlist [.atom "+", .num 1, .atom "n"]]], vlist [.atom "t", vlist [.atom "helper", .atom "ret", .atom "count", vlist [.atom "+", .num 1, .atom "n"]]]]],
  vlist [.atom "defn", .atom "n-primes", vlist [.atom "num"], vlist [.atom "helper", .nil, .atom "num", .num 1]],
  vlist [.atom "println", vlist [.atom "n-primes", .num 300]]]

/-- `divides?`, examples/primes.l1:3, as a function value. -/
def x_dividesP : Val := .lam ["d", "x"] "" (vlist [vlist [.atom "zero?", vlist [.atom "rem", .atom "x", .atom "d"]]]) .nil false 0

/-- `square`, examples/primes.l1:6, as a function value. -/
def x_square : Val := .lam ["n"] "" (vlist [vlist [.atom "*", .atom "n", .atom "n"]]) .nil false 0

/-- `find-divisor`, examples/primes.l1:8, as a function value. -/
def x_find_divisor : Val := .lam ["n", "test-divisor"] "" (vlist [vlist [.atom "cond", vlist [vlist [.atom ">", vlist [.atom "square", .atom "test-divisor"], .atom "n"], .atom "n"], vlist [vlist [.atom "divides?", .atom "test-divisor", .atom "n"], .atom "test-divisor"], vlist [.atom "t", vlist [.atom "find-divisor", .atom "n", vlist [.atom "+", .atom "test-divisor", .num 1]]]]]) .nil false 0

/-- `smallest-divisor`, examples/primes.l1:13, as a function value. -/
def x_smallest_divisor : Val := .lam ["n"] "" (vlist [vlist [.atom "find-divisor", .atom "n", .num 2]]) .nil false 0

/-- `prime?`, examples/primes.l1:16, as a function value. -/
def x_primeP : Val := .lam ["n"] "" (vlist [vlist [.atom "=", .atom "n", vlist [.atom "smallest-divisor", .atom "n"]]]) .nil false 0

/-- `helper`, examples/primes.l1:28, as a function value. -/
def x_helper : Val := .lam ["ret", "count", "n"] "" (vlist [vlist [.atom "cond", vlist [vlist [.atom "zero?", .atom "count"], vlist [.atom "reverse", .atom "ret"]], vlist [vlist [.atom "prime?", .atom "n"], vlist [.atom "helper", vlist [.atom "cons", .atom "n", .atom "ret"], vlist [.atom "-", .atom "count", .num 1], vlist [.atom "+", .num 1, .atom "n"]]], vlist [.atom "t", vlist [.atom "helper", .atom "ret", .atom "count", vlist [.atom "+", .num 1, .atom "n"]]]]]) .nil false 0

/-- `n-primes`, examples/primes.l1:36, as a function value. -/
def x_n_primes : Val := .lam ["num"] "" (vlist [vlist [.atom "helper", .nil, .atom "num", .num 1]]) .nil false 0

/-- The lines of examples/tco.l1. -/
def tcoLines : List String := [
  ";; Highly-recursive examples which showed the need for tail-call",
  ";; optimization.  Before TCO was implemented, these examples would",
  ";; blow the stack.",
  "",
  "(defn sum-to-acc (n acc)",
  "  (cond ((zero? n) acc)",
  "        (t (sum-to-acc (- n 1) (+ n acc)))))",
  "",
  "(defn sum-to-acc-with-let (n acc)",
  "  (let ((_ 1))",
  "    (cond ((zero? n) acc)",
  "          (t (sum-to-acc-with-let (- n 1) (+ n acc))))))",
  "",
  "(defn sum-to (n) (sum-to-acc n 0))",
  "(defn sum-to-with-let (n) (sum-to-acc-with-let n 0))",
  "",
  "(is (= 500000500000 (sum-to (* 1000 1000))))",
  "(is (= 500000500000 (sum-to-with-let (* 1000 1000))))",
  ""]

/-- The text of examples/tco.l1. -/
def tcoText : List Char := joinNl (tcoLines.map String.toList)

/-- The forms of examples/tco.l1. -/
def tcoForms : List Val := [
  vlist [.atom "defn", .atom "sum-to-acc", vlist [.atom "n", .atom "acc"], vlist [.atom "cond", vlist [vlist [.atom "zero?", .atom "n"], .atom "acc"], vlist [.atom "t", vlist [.atom "sum-to-acc", vlist [.atom "-", .atom "n", .num 1], vlist [.atom "+", .atom "n", .atom "acc"]]]]],
  vlist [.atom "defn", .atom "sum-to-acc-with-let", vlist [.atom "n", .atom "acc"], vlist [.atom "let", vlist [vlist [.atom "_", .num 1]], vlist [.atom "cond", vlist [vlist [.atom "zero?", .atom "n"], .atom "acc"], vlist [.atom "t", vlist [.atom "sum-to-acc-with-let", vlist [.atom "-", .atom "n", .num 1], vlist [.atom "+", .atom "n", .atom "acc"]]]]]],
  vlist [.atom "defn", .atom "sum-to", vlist [.atom "n"], vlist [.atom "sum-to-acc", .atom "n", .num 0]],
  vlist [.atom "defn", .atom "sum-to-with-let", vlist [.atom "n"], vlist [.atom "sum-to-acc-with-let", .atom "n", .num 0]],
  vlist [.atom "is", vlist [.atom "=", .num 500000500000, vlist [.atom "sum-to", vlist [.atom "*", .num 1000, .num 1000]]]],
  vlist [.atom "is", vlist [.atom "=", .num 500000500000, vlist [.atom "sum-to-with-let", vlist [.atom "*", .num 1000, .num 1000]]]]]

/-- `sum-to-acc`, examples/tco.l1:5, as a function value. -/
def x_sum_to_acc : Val := .lam ["n", "acc"] "" (vlist [vlist [.atom "cond", vlist [vlist [.atom "zero?", .atom "n"], .atom "acc"], vlist [.atom "t", vlist [.atom "sum-to-acc", vlist [.atom "-", .atom "n", .num 1], vlist [.atom "+", .atom "n", .atom "acc"]]]]]) .nil false 0

/-- `sum-to-acc-with-let`, examples/tco.l1:9, as a function value. -/
def x_sum_to_acc_with_let : Val := .lam ["n", "acc"] "" (vlist [vlist [.atom "let", vlist [vlist [.atom "_", .num 1]], vlist [.atom "cond", vlist [vlist [.atom "zero?", .atom "n"], .atom "acc"], vlist [.atom "t", vlist [.atom "sum-to-acc-with-let", vlist [.atom "-", .atom "n", .num 1], vlist [.atom "+", .atom "n", .atom "acc"]]]]]]) .nil false 0

/-- `sum-to`, examples/tco.l1:14, as a function value. -/
def x_sum_to : Val := .lam ["n"] "" (vlist [vlist [.atom "sum-to-acc", .atom "n", .num 0]]) .nil false 0

/-- `sum-to-with-let`, examples/tco.l1:15, as a function value. -/
def x_sum_to_with_let : Val := .lam ["n"] "" (vlist [vlist [.atom "sum-to-acc-with-let", .atom "n", .num 0]]) .nil false 0

/-- The lines of examples/hello.l1. -/
def helloLines : List String := [
  "#!/usr/bin/env l1",
  ";; hello.l1",
  "(printl '(hello world))",
  ""]

/-- The text of examples/hello.l1. -/
def helloText : List Char := joinNl (helloLines.map String.toList)

/-- The forms of examples/hello.l1. -/
def helloForms : List Val := [
  vlist [.atom "printl", vlist [.atom "quote", vlist [.atom "hello", .atom "world"]]]]

/-- The lines of examples/fails.l1. -/
def failsLines : List String := [
  ";; Used to integration-test nonzero exit status:",
  "(printl '(This statement should fail:))",
  "(is ())",
  ""]

/-- The text of examples/fails.l1. -/
def failsText : List Char := joinNl (failsLines.map String.toList)

/-- The forms of examples/fails.l1. -/
def failsForms : List Val := [
  vlist [.atom "printl", vlist [.atom "quote", vlist [.atom "This", .atom "statement", .atom "should", .atom "fail:"]]],
  vlist [.atom "is", .nil]]

/-- The lines of examples/badlex.l1. -/
def badlexLines : List String := [
  ";; should print an error occurring on line 4:",
  "(printl",
  " (+ 1",
  "    2",
  "    3 & 4))",
  ""]

/-- The text of examples/badlex.l1. -/
def badlexText : List Char := joinNl (badlexLines.map String.toList)

end L1
