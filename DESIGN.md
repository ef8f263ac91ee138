# Design: a Lean 4 model of eigenhombre/l1

## Shape of the model

* `lean/Verif/Model/*` is an executable model, written function by function from `/repo/lisp/*.go` and
  `/repo/main.go`; each definition cites the lines it models and says where it simplifies.
  `Model/DocTables.lean` (the documentation tables) and `Model/CoreLib.lean` (the text of `lisp/l1.l1`, and the
  forms it reads to) are generated by `scripts/gen_docs.py` and `scripts/gen_core.py`; that the forms
  are what the modelled reader makes of the text is proved (`read_core`), not assumed.
* `lean/Verif/Spec/*` is the vocabulary of the property statements: small definitions that do not refer to the
  functions they specify (grammar, scope chains, parameter passing, text shapes, reachable stack, ...).
* `lean/Verif/Lemmas/*` are helper lemmas; `lean/Verif/Props/*` contain the property theorems, named `Cnn_*`, each
  followed by a concrete case that meets its hypotheses.

### Values and state

`Val` = `nil | atom | num Int | cons | lam (closure) | bi (built-in)`.  Cons cells are never mutated and
never compared by identity in the Go code, so plain trees are faithful.  Environments *are* mutated and
shared, so they are an explicit heap: `St.heap : List Frame`, an environment is an index, a closure stores
the index.  `St` also has the gensym counter, the output so far, the remaining input, a tick counter for
external queries, whether there is a screen together with the list of orders given to the terminal and the clock, and one ghost component `issued` (the names gensym has returned, read by
nothing).  External behaviour (files, random numbers, subprocesses, keys, undefined big.Int parses, Unicode
tables outside ASCII) is a parameter `World` about which nothing is assumed; it is consulted only through
counted queries (`askM`), so one `World` is one history of outside answers and quantifying over `World`
quantifies over all of them.

### Evaluation

`run W fuel depth : Task → St → Res Val`.  `fuel` bounds the number of evaluator steps (running out gives
`oof`, i.e. "not finished yet"); `depth` is the Go stack still available (running out gives `overflow`, Go's
fatal stack overflow).  A Go call of `eval` uses one unit of depth, a `goto top` uses none: this is what
makes tail-call optimisation a statement of the model.  A result is `ok`, `err`, `crash` (Go panic,
which nothing in l1 recovers), `exit` (with a status), `overflow` or `oof`.
`run` is the iteration of one non-recursive step function `runStep call tail`, so whole-evaluator theorems
are proved once, by a closure argument on `runStep`, and instantiated.

* `perform W t` / `eval W x e` (`Model/Limit.lean`): the outcome with an unlimited budget, defined as the outcome for any
  sufficiently large budget (`.oof` if there is none: the evaluation does not end).  By C44 it does not
  matter which.  They satisfy `perform = runStep perform perform`, which is what most proofs compute with.
* `performIn`, `evalWithin` (`Spec/Stack.lean`): unlimited steps on a fixed stack, for C30.
* `Model/Watch.lean`: `runWatched W w` is the same interpreter that checks a predicate `w` at every call and every return of the
  interpreter and crashes if it fails; `Always W w` says that no run from the initial state ever trips it.  This is how
  "at every moment of every execution" is stated (C19, C22, C23, C31, C37).
* the core library: `CoreAt h e` says that scope `e` sees the unmodified library; `Gives W s name vs v` that calling the library
  function `name` with `vs` gives `v` and leaves every existing scope, the output etc. as they were.  The
  library theorems are proved by symbolic execution of the library's real forms.

## How each property is proved

| property | model part | proof method |
|---|---|---|
| C01 | printer, lexer, parser | structural induction over values; lexer lemmas per token |
| C02, C03 | parser | independent inductive grammar; soundness/completeness; fuel adequacy |
| C04, C42 | LexParseEval / EvalExprs | unfolding + induction over forms |
| C05, C06 | lexer/parser | induction over the lexer's input |
| C07 | repl line grouping | induction over lines against a spec on paren counts |
| C08 | Equal | mutual structural induction against an independent relation |
| C09-C12, C47 | numeric built-ins | induction over argument lists; integer lemmas |
| C13-C17 | list built-ins | list induction; `List.Perm`, sortedness; for C15 the order of the UTF-8 encodings of code points |
| C18, C20, C21, C26 | environment operations | refinement to a spec on scope chains |
| C19, C22, C23, C31, C37, C43 | whole evaluator | invariant preserved by `runStep`, induction on fuel |
| C24, C25 | function call | equality of runs; case analysis |
| C27-C29, C32-C34, C36 | special forms | step lemmas; induction over operand lists |
| C30 | depth parameter | induction on n with fixed depth |
| C35 | syntax-quote + concat2 | induction over templates with the core library loaded |
| C38-C41 | core library | symbolic execution of the real library code in the model; induction |
| C44 | `run` | relational closure argument (monotonicity in fuel and depth) |
| C45 | built-ins | case analysis; counterexample witnesses for the crashing ones |
| C46 | source/mkLambda | induction over parameter lists |
| C48, C74 | screen state machine; the orders given to the terminal and the clock (Spec/Device.lean) | running each function; induction over the text for the columns; induction over all runs for "nothing else" and "append-only" |
| C49 | whole evaluator and `main` | relational closure argument on `runStep`: two worlds that agree on the queries asked |
| C50, C51, C53 | native functions | list induction against `Spec/Text` |
| C60 | lexer, parser | independent longest-match lexical grammar (`Spec/Lexical`); each lexer step finds the longest token or none exists; with C02 |
| C61 | lexer, parser | line numbers through `lexFrom`; induction over the parser for error shapes |
| C62 | `repl` | the session as an inductive relation (`Spec/Session`), equivalent to the loop |
| C63 | all of the interpreter | simulation between a state and its image under a renumbering of scopes plus unreferenced scopes (`Lemmas/Sim*`), proved for every evaluator function and native by structural rules, for runs by induction on the step budget, and taken to the limit; private scopes are those left out by the compaction `Nat.nth` (`Lemmas/Encap`) |
| C64 | all of the interpreter | the same simulation with the renumbering that shifts new scopes |
| C65 | all of the interpreter; main for scripts | every task preserves the part of the state concerned, by induction on the run, stopping at the functions and forms listed in Spec/Effects.lean (Lemmas/Effects.lean); watching is shown to change nothing unless it stops |
| C66 | all of the interpreter | the same induction with "the first n scopes are unchanged" |
| C67 | library text functions | symbolic execution of the library source (`Lemmas/CoreWords`) against `Spec/Words` |
| C68 | forms, help, -doc, -longdoc, all flags but -p | the sort and the map walk by permutations; examples run as tasks that keep the visible variables (watched), so what is described is what was visible at the start (`Lemmas/Docs`) against `Spec/Docs` |
| C69 | native functions, special forms, documentation tables | cases over the functions and the lengths of argument lists |
| C70 | library functions that take a function | plans (which calls, in which order) in `Spec/Plans`; symbolic execution of the library source with calls of an arbitrary function in between, which by C63 cannot change the scopes the library function is using (`Lemmas/Under`, `Lemmas/CorePlans*`) |
| C71 | while, dotimes | turns of a loop (`Spec/Loops`): a step leads to the next turn or ends the loop; one turn by symbolic execution of the expansion, then coinduction: endless turns would need endlessly many scopes, so the evaluation does not end (`Lemmas/Loops*`, `Lemmas/Grows`) |
| C72 | let*, is, with-screen, random functions, true?, pi100 | symbolic execution of the expansions as for C41, C70 and C71; what `let*` does is an inductive relation over the bindings (`Spec/Library2`, `Lemmas/CoreRest`) |
| C73 | `mkLambda`, `parseParams`, `splitDoc` as modelled | exact outcomes per shape of the form; `parseParams_shape` classifies argument lists by structural induction |
| C75 | `Exchangeable` (Spec/Refactor.lean): outcomes equal up to a renumbering of scopes and the front element of errors, for all later expressions | simulation of two runs (Lemmas/Sim.lean, for injective renumberings that keep parents below children); induction over the arguments; Lemmas/Refactor.lean |
| C76 | `exitStatus`, `TextRun`, `ScriptRun`, `ExprRun` (Spec/Status.lean): relations describing a run form by form and file by file; `Res.exit` carries the status given to `os.Exit` | equivalence with `mainWith` by induction over the files and forms; the evaluator exits only with status 0 (`EI` pass over the step function); the REPL by induction on the session |
| C77 | the texts of six example programs, generated from /repo/examples by scripts/gen_examples.py (Model/Examples.lean) and read by the modelled lexer and parser; `Answers`, `Wrote`, `OneOrPrime` (Spec/Programs.lean); factorials, primes and least divisors are Mathlib's | the text is read once in the kernel; a calculus of programs over an intact library (`Prog`, `Step`, `G`, `Returns`); induction on the argument for each recursive function; for the stack bound the same calculus over `evalWithin` (Lemmas/Within.lean) |
| C78 | `Reaches`/`EvalsTo` describe what the head and the arguments of a written call evaluate to; the call by the native name and the call through any head are both the native task under the same error frame (`native_written`, `C78_any_head`, `C78_variable`). The same file (`Props/Written.lean`) restates C08–C16, C36, C37, C43, C46–C48, C50–C53, C56, C57, C69 and C74 for calls as they are written in a program (`CallEnds`). |
| C79 | `compiledMain` is the Go program in `l1c`; `CompiledRun` describes it with the same `TextRun` as C76; equivalence by cases on the outcome of `lexParseEval`. |
| C80 | `parseArgs` models Go's `flag.Parse` for the five flags, `program` the whole of `main` from `os.Args`; `Means` is the grammar of command lines; equivalence by induction on the arguments and on the derivation. |
| C81 | `readB` models `bufio.Reader.ReadLine` on a fresh reader over an input that is a list of reads; `delivered` iterates it. Induction on the reads; every line takes at least one byte. |
| C82 | `Straight N x` describes the expressions, `Original N` the scopes where the names in `N` are unbound. Induction on the expression: with a stack as deep as the expression is nested the evaluation ends, and afterwards every scope that was `Original` still is (no name of `N` is bound or assigned, and new scopes bind none). |
| C83 | `semverAsExprs` with the regular expression as greedy matching functions; `VerNum` and `dotted` describe the texts. Case analysis on the number of parts; induction on the text for the others. |
| C84 | The evaluator on a stack of bounded depth (C29, C30), applied to the library definitions. `GivesWithin`/`Overflows` in `Spec/StackUse.lean`; induction on the list, with a calculus of evaluation within a depth (`Lemmas/WithinCore.lean`) and one of overflow (`Lemmas/Overflow.lean`). |
| C85 | The expansion of `while` on a bounded stack; well-founded induction on the bound on the turns (`Lemmas/WithinLoop.lean`). |
| C86 | The rules as an inductive relation (`Spec/Rules.lean`); the outcomes of `run` have derivations, by induction on the steps; derivations are outcomes of the unlimited interpreter, by induction on derivations (`Lemmas/Rules.lean`, `Lemmas/RulesSound.lean`). Taken from the model in the rules: `lambda`/`defn`/`defmacro` (C73), native functions that evaluate nothing, the expression of a template (C35), the reader (C02), and the layout of `forms` and `help` (C43). |
| C87 | The text of examples/sentences.l1 (Model/Examples2.lean, generated by scripts/gen_examples.py); grammars, derivations and chosen derivations as inductive relations (`Spec/Sentences.lean`) | the text is read once in the kernel; `generate` by induction on chosen derivations in one direction and on the number of random numbers taken in the other (`Lemmas/Gen.lean`); the loop by an invariant rule for `dotimes` whose body need not end (`Lemmas/Turns.lean`) |
| C88 | The text of examples/eliza.l1 (Model/Examples2.lean); patterns, all the ways in which they fit, and Eliza's answers as functions on lists (`Spec/Eliza.lean`), which are characterised in turn by `C88_fits` | the text is read once in the kernel; `pat-match` by induction on the pattern, `segment-match` by induction on the number of places left (`Lemmas/ElizaMatch.lean`); the rules one after the other, the conversation by induction on the lines (`Lemmas/ElizaTalk.lean`, `Lemmas/ElizaLoop.lean`); the tests in the script are evaluated with these theorems |
| C89 | The text of examples/meta.l1 (Model/Examples2.lean); the different elements of a list in the order of their last occurrences, with the numbers of their repetitions, and the text of the report (`Spec/Meta.lean`), characterised in turn by `C89_repetitions` | a rule for a `let` whose variables are assigned in a `foreach` (`G.letForeach`, from the proof for `enumerate`); the two loops with the list of pairs so far as invariant (`Lemmas/Meta.lean`); a rule for `foreach` with a body that writes (`Lemmas/MetaReport.lean`) |
| C90 | The text of examples/fuzz-legal.l1 (Model/Examples3.lean, generated by scripts/gen_examples.py); legal expressions and their values as inductive relations (`Spec/FuzzLegal.lean`) | a calculus of computations that either draw fewer random numbers than a given bound or end well (`Lemmas/Drawn.lean`): since every recursive call of the script draws first, the generators follow by induction on the number of draws left (`Lemmas/FuzzGen.lean`); values by induction on legal expressions (`Lemmas/FuzzEval.lean`); the loop with C71 (`Lemmas/FuzzLoop.lean`); non-termination by the same calculus with a false postcondition (`Lemmas/FuzzForever.lean`) |
| C91 | The text of examples/galax.l1 (Model/Examples4.lean, generated); the lines as a function of the random numbers (`Spec/Galax.lean`) | a calculus of expressions that take a known number of random numbers (`Lemmas/Exact.lean`), applied to the script's functions (`Lemmas/Galax.lean`); the user-defined macro `defnth` by its expansion, the loop by an invariant (`Lemmas/GalaxScript.lean`) |
| C92 | The texts of examples/screen-test.l1 and examples/help.l1 (Model/Examples5.lean, generated); names of keys and the orders for a text (`Spec/ScreenTest.lean`) | the macro `with-screen` as in C72, its body form by form with C48 and C74 (`Props/ScreenTest.lean`); `help` with C68 |
| C52, C57, C58, C59 | readlist, load, main | unfolding + C02/C42 + `load_core` |
| C54, C55 | errors, test | induction over the forms |
| C56 | sort-by, for any algorithm that compares and exchanges (a decision tree, `Sorter`) | induction on the tree, for every function passed; an algorithm that sorts must compare elements of different kinds, since it cannot tell two orders apart otherwise (`Spec/Sorting`, `Lemmas/Sorter`); insertion sort is shown to sort |

## Trusted base

Lean's kernel (and the standard axioms `propext`, `Classical.choice`, `Quot.sound`; no others);
the reading of the Go code recorded in the comments of the model; the stated behaviour of the Go runtime and
standard library listed under "Not modelled".

As a check of that reading the model is also *run* on the project's own test data (`scripts/conform.py`; not part of the proofs): the 44 + 70 + 53 cases of
`lex_test.go`, `parse_test.go`, `sexpr_test.go` and `eval_test.go`; the 3741 lines of `api.md`, which the Go program
made with `-longdoc` (they contain the outcomes of 135 functions' examples, among them stack traces); and the text of `(help)` in `lisp/examples.txt`.  The outputs agree.  A further part of the script runs the forms of `tests.l1` with smaller numbers;
it takes more than a quarter of an hour, was stopped before it ended, and is not claimed.  (The check found
one mistake: an example of `syntax-quote`, written in the Go source as two strings joined by `+`, was missing in the generated table.)

## Not modelled

* Go's stack is `depth` units, one per nested interpreter call; the stack used by `Equal`, `String` and the reader on deeply nested data
  is not counted.  Memory exhaustion is not modelled.
* `sort.Slice` is, for `sort-by`, an arbitrary algorithm that compares and exchanges elements (part of the world; that it sorts is a hypothesis, `World.Sorts`, of the theorems that
  need it, and holds for insertion sort); for `sort` and for the listings an insertion sort: exact for `sort`, whose result is unique (C15).
* Characters are Unicode scalar values; invalid UTF-8 in source files or input is not modelled (C81 takes the decoding of input lines as a
  parameter; `C81_text` needs of it only that it reads valid UTF-8).  Texts that Go slices by byte
  (`docToString`) are sliced by character.
* `%q` in error messages takes every character from 128 on as printable; below that it is exact.
* The gensym counter is a natural number (Go: `int`, which would wrap after 2^63 calls).
* `inp` is the sequence of lines actually delivered; how they come from the bytes of the standard input is C81 (`Model/Input.lean`), with the decoding of bytes an arbitrary
  function.  A read that delivers nothing, read errors, and input after an end of file typed at a terminal are not modelled.
* The terminal and the clock are the list of orders given to them (tcell calls, durations); what the terminal makes of them, the widths of characters
  (an arbitrary table), and the order between these and standard output are outside.  Events other than keys are skipped by the modelled `PollEvent`.
* What is written to the profile (`-p`) and the messages of the `flag` package (error output) are not modelled.
  `forms`, `help`, `-doc` and `-longdoc` are modelled including their texts and the evaluation of examples.
* That the Go runtime ends a panicking program with status 2 is taken from its documentation.
* Concurrency: the program has none.

## Findings

Behaviour of the code that a user may not expect; each is a theorem or example where noted.

* `/` is Euclidean division and `rem` is the remainder of truncated division, so `(+ (* b (/ a b)) (rem a b))` is not `a` for e.g. -7 and 2 (C10_identity).
* No function is equal to anything, not even to itself: `(= + +)` is `()` (C08_function).
* Crashes (Go panics) reachable from programs: `(isqrt -1)`, `(len '(1 . 2))`, `(fuse '(a . b))`, `(randint n)` when the low 64 bits of `|n|` are 0 or at least 2^63
  (C45_exact), reading `(a . )` (C03_crash), `(try x (catch))`, improper lists as bodies of several special forms, `(unquote)` inside a template,
  `(help)` with a documented function whose first documentation item prints as one character.  Nothing can catch them (C45_not_caught).
* `(let ((a)) body)` returns `()` at once, without evaluating the body (C26_no_value).  A `cond` clause evaluates only the first expression after its condition;
  `and` returns `t` rather than the last value (C29).
* A catch clause with an empty body returns the last value before the error (C32_empty_catch); errors of the operating system cannot be bound by catch but are
  replaced by another error (C32_foreign).
* A named lambda binds its name in the scope where it is written, as does therefore `while`; macros expand in a scope inside the caller's,
  so local variables named `cons` or `concat2` break templates (the library theorems ask that the scope sees the library unmodified).
* A macro whose name is that of a special form takes precedence over it (hence the `NotMacro` hypotheses), while names like `cadr` cannot be rebound as variables.
* `(take -1 l)` is all of `l` (C39_take_negative); `(drop -1 l)` and `(nth -1 l)` are `()`; `repeatedly` and `**` do not end for negative counts.
* `source` of a function whose body begins with a second doc form loses it (C46_second_doc).
* `(fuse (split -5))` is the atom `-5`, not the number (C14_negative).
* Non-tail recursion overflows every fixed stack (C30_not_tail).
* A failed initialisation of the screen leaves it marked as open (C48_start).  `with-screen` does not end the screen after an error.
* `screen-write` and `sleep` take the absolute value of their numbers modulo 2^64: `(sleep -5000)` waits five seconds, `(screen-write -3 0 l)` writes at column 3 (C74).
* `forms` and `help` list a documented function once for every scope that binds its name (`EnvKeys` repeats the names of enclosing scopes), each time with the
  nearest definition.  They evaluate the examples in the documentation, with all their effects.
* Documented numbers of arguments that are not those of the code: `/` (1 argument is accepted), `apply` (more than 2 are), `gensym` (at most 1); nine native functions
  ignore their arguments, five special forms ignore extra expressions (C69).
* `dotimes` binds `count` visibly: its body sees the number of turns to go instead of a variable `count` of the program, and can change it (C71_dotimes).  `while` leaves a
  function with a new name bound in the scope where it is used (C71_while).
* The expansion of `is` mentions `when-not`, `error`, `concat` and `list` as the program sees them; `(is (= a b c))` is treated as an ordinary condition.  The thunk made by
  `with-screen` has the parameter list `()`, so the body may begin with anything; if the body raises an error the screen is left running (C72_with_screen).  The
  documentation of `randigits` describes `randint`.
* A named `lambda` binds its name in the scope it is evaluated in, not in a scope of its own, so it overwrites a variable of that name there; the name `t` is silently ignored
  instead of being an error (C73_named, C73_named_t).
* examples/primes.l1 takes 1 for a prime (`(prime? n)` is `t` for every n below 2), so the first of its 300 "primes" is 1 (C77_primes).  examples/badlex.l1 no longer shows a
  lexical error: `&` is now a name like any other, and the script fails with `unknown symbol: &` (C77_badlex).
* Programs made by `l1c` drop errors: a failing program says nothing and ends with status 0 (C79).
* `ReadLine` makes a new buffered reader for every line, so of `printf '1\n2\n' | l1` only the first line is evaluated (C81_lost, C81_program).
* `map`, `filter`, `take`, `concat2` (so `concat`), `repeat`, `reverse` and `**` are not tail recursive: they need a stack as deep as the list is long (C84_*_overflow), and Go ends
  the process when its stack is exhausted, which `try` cannot catch.  `range`, `reduce`, `nth`, `drop`, `last`, `every` and `some` have no such limit.
* The bigger grammar of examples/sentences.l1 can be expanded without end (C87_bigger_endless), so `./sentences.l1` may, with small probability, exhaust Go's stack.
* examples/eliza.l1: names of the form `c[ad]+r` are resolved before the scope is searched, so its `(defn cadr ...)` has no effect; `apply-rule` refers to `random-elt` and `input`, which
  are not defined, and is never called; `segment-pattern?` is defined twice.  `pat-match` first compares pattern and input with `=`, so a line that contains `(?* ?y)` itself can
  match without `?y` being bound; two pieces `(?* v)` in a row fit nothing; a pattern that ends with a word is matched by `(car ())`, so `()` fits `(())` (these inputs are excluded
  in C88_match).  At the end of the input the program does not stop but fails with `EOF`, status 1 (C88_script).
* examples/meta.l1: `increment-key` starts counting at 0, so every number in its report is one too small (C89_frequencies, C89_report).
* examples/fuzz-legal.l1: `num` halves its size, but at size 0 it may still choose `arith`, which makes at least one `num` again; so `(expr n)` goes on for ever with some random numbers
  (C90_forever; in practice the stack is exhausted).  `nums` is defined twice, `atoms` and `quoteatom` are not used.
- examples/galax.l1: `place-phrase` and `itsalive` pass both alternatives to `either`, which is a function, so both are made and 10 of the 21 random numbers of a sentence
  choose words that are not used (C91).  Two of the 222 numbers are spent on `(color)` and `(lifeforms)` at the top level, whose values a script does not print.
