#!/usr/bin/env python3
"""Source of /verif/properties.jsonl (kept as a script so that the text stays readable)."""
import json
P = []
def p(id, title, statement, quantifier, why, anchors):
    P.append(dict(id=id, title=title, statement=statement, quantifier=quantifier,
                  why_tests_cant=why, anchors=anchors))

# ---------------------------------------------------------------- reader / printer
p("C01", "Printed data reads back as itself",
  "For every value built from integers, readable atoms, () and cons cells (proper or dotted), the text the interpreter prints for it, given back to the reader, reads as exactly one form, and that form is the same value.",
  "every function-free value whose atom names are readable (legal start character, no delimiter later)",
  "The space of nested values and atom names is infinite; a printing/lexing mismatch can sit at one odd name, sign or dotted tail.",
  ["lisp/cons.go:String", "lisp/math.go:Number.String", "lisp/lex.go:LexItems", "lisp/parse.go:Parse"])
p("C02", "Reader implements one fixed grammar",
  "The parser accepts a token sequence exactly when the sequence is derivable in the documented expression grammar (atoms, numbers, prefix sugar, proper and dotted lists, optional leading shebang), and the forms returned are the ones the grammar assigns; it never loses, repeats or reorders a form.",
  "every finite token sequence",
  "Nesting depth, list length and mix of prefixes are unbounded; the parser works by chunk offsets, where off-by-one errors only show at particular nestings.",
  ["lisp/parse.go:Parse", "lisp/parse.go:parseNext", "lisp/parse.go:parseList", "lisp/parse.go:listChunk", "lisp/parse.go:dotChunk"])
p("C03", "Reading always ends with forms, an error, or one known crash",
  "Reading any text terminates. The outcome is a list of forms or an error, except that a list with a dot followed by nothing, as in '(a . )', crashes the process.",
  "every input text",
  "Termination and absence of crashes is a statement about all inputs.",
  ["lisp/parse.go:parseList", "lisp/parse.go:Parse", "lisp/lex.go:lexStart"])
p("C04", "A program with a syntax error has no effect at all",
  "If any part of a program text fails to read, evaluating that text returns the read error and leaves all bindings, output and counters as they were: forms before the bad one are not run.",
  "every program text and every interpreter state",
  "Needs the guarantee over every position of the error in every program.",
  ["lisp/lisp.go:LexParseEval", "lisp/lisp.go:EvalExprs", "lisp/parse.go:lexAndParse"])
p("C05", "Quote sugar means the long form",
  "Writing ', `, ~, ~@ or #_ before a form reads as (quote F), (syntax-quote F), (unquote F), (splicing-unquote F), (comment F), for every form F that follows.",
  "every form text F and each of the five prefixes",
  "F ranges over all expressions, including nested sugar.",
  ["lisp/parse.go:handleQuoteItem", "lisp/parse.go:parseNext", "lisp/lex.go:lexStart", "lisp/lex.go:lexUnquote", "lisp/lex.go:lexHashSugar"])
p("C06", "Comments and blank space never change what is read",
  "Appending a ; comment or white space to a line, or inserting blank lines, leaves the token sequence unchanged (for lines without a shebang or an illegal character).",
  "every line of text, every comment text, every amount of white space",
  "The lexer is a state machine over arbitrary text.",
  ["lisp/lex.go:lexStart", "lisp/lex.go:ignoreToEndOfLine", "lisp/lex.go:LexItems"])
p("C07", "REPL keeps reading exactly until parentheses balance",
  "The REPL hands a group of lines to the parser at the first line where opening and closing parentheses balance; it reports an error at the first line where there are too many closing ones; otherwise it keeps reading.",
  "every sequence of input lines",
  "Every interleaving of lines and parentheses.",
  ["main.go:repl", "lisp/lex.go:IsBalanced"])
# ---------------------------------------------------------------- data
p("C08", "= is structural equality on data, and never true of functions",
  "(= a b) yields t exactly when a and b are the same data (same atom name, same integer, same shape with equal parts) and contains no function anywhere; comparing a function with anything, including itself, yields ().",
  "every pair (and every n-ary list) of values",
  "Nested values of any depth and mixed types.",
  ["lisp/cons.go:Equal", "lisp/atom.go:Equal", "lisp/math.go:Equal", "lisp/lambda.go:Equal", "lisp/builtin.go:Builtin.Equal", "lisp/builtin.go:\"=\""])
p("C09", "Integer arithmetic is exact and unbounded",
  "+ and * return the mathematical sum and product of any number of integers (0 and 1 for none), - negates one argument and otherwise subtracts the rest from the first; any non-number argument gives an error, never a wrong number.",
  "every argument list",
  "Integers are unbounded and argument lists have any length.",
  ["lisp/builtin.go:\"+\"", "lisp/builtin.go:\"-\"", "lisp/builtin.go:\"*\"", "lisp/math.go:Add", "lisp/math.go:Sub", "lisp/math.go:Mul"])
p("C10", "Division: / floors toward Euclid, rem truncates, zero divisors are errors",
  "(/ a b) is the Euclidean quotient and (rem a b) the truncated remainder, for b not 0; a zero divisor anywhere gives the error 'division by zero' and never a crash. Consequently b*(a/b)+(rem a b)=a holds for non-negative a and for exact division, and is false for the other negative a.",
  "all integers a, b and longer argument lists",
  "All integers, including negative and huge ones.",
  ["lisp/builtin.go:\"/\"", "lisp/builtin.go:\"rem\"", "lisp/math.go:Div", "lisp/math.go:Rem"])
p("C11", "Comparison chains",
  "(< a b c ...) is t exactly when the integers are strictly increasing, and likewise <= > >= for increasing-or-equal, strictly decreasing and decreasing-or-equal; one argument is always t.",
  "every non-empty list of integers",
  "Lists of any length with unbounded integers.",
  ["lisp/builtin.go:compareMultipleNums", "lisp/builtin.go:\"<\"", "lisp/builtin.go:\">=\""])
p("C12", "isqrt is the integer square root",
  "For n >= 0, r = (isqrt n) satisfies r*r <= n < (r+1)*(r+1), exactly, for numbers of any size; a negative argument crashes the process.",
  "every integer",
  "Unbounded integers; floating point shortcuts fail only on huge inputs.",
  ["lisp/builtin.go:\"isqrt\""])
p("C13", "car, cdr, cons, list, len laws",
  "(car (cons a b)) is a, (cdr (cons a b)) is b, car and cdr of () are (), of a non-list an error; (list x1..xn) is the proper list of its arguments and (len l) its element count; len of a dotted list crashes the process.",
  "every value / argument list",
  "All values and list lengths.",
  ["lisp/builtin.go:\"car\"", "lisp/builtin.go:\"cdr\"", "lisp/builtin.go:\"cons\"", "lisp/builtin.go:\"list\"", "lisp/builtin.go:\"len\""])
p("C14", "fuse undoes split",
  "(fuse (split a)) is a for every atom that does not begin with a digit and every integer >= 0; for a negative integer it is the atom with the same spelling, not the number.",
  "every atom and every integer",
  "All names and all integers.",
  ["lisp/builtin.go:\"fuse\"", "lisp/builtin.go:\"split\"", "lisp/builtin.go:listOfChars", "lisp/builtin.go:listOfNums"])
p("C15", "sort returns the sorted permutation",
  "(sort l) on a list of integers (or of atoms) returns a permutation of l in non-decreasing order (atoms by the bytes of their names in UTF-8); that result is the only possible one. Lists mixing types, or of other types, give an error, which names the first element whose type is not that of the first one, or says that the type cannot be sorted.",
  "every proper list",
  "All lists, lengths, duplicates and orders.",
  ["lisp/builtin.go:\"sort\""])
p("C16", "shuffle returns a permutation",
  "(shuffle l) returns a list with the same elements with the same multiplicities, whatever the random source does.",
  "every proper list and every random source",
  "All lists and all random outcomes.",
  ["lisp/builtin.go:\"shuffle\""])
p("C17", "apply spreads its last argument",
  "(apply f a1 .. ak l) calls f with a1 .. ak followed by the elements of the list l: for a built-in f the result is that of the direct call.",
  "every function, argument list and proper list",
  "Argument counts are unbounded.",
  ["lisp/builtin.go:applyFn"])
# ---------------------------------------------------------------- environment
p("C18", "A name means its nearest enclosing binding",
  "Evaluating an atom other than t and the c[ad]+r names gives the value in the innermost scope that binds it, else the built-in of that name, else the error 'unknown symbol: NAME'.",
  "every scope chain, every name",
  "Chains of any depth with any shadowing.",
  ["lisp/env.go:Lookup", "lisp/lisp.go:evAtom"])
p("C19", "t is constant",
  "In every state reachable by running any program, no scope binds t, and evaluating t gives t. An attempt to bind t with def, defn, set!, let or a parameter is an error.",
  "every program and every reachable state",
  "Quantifies over all histories of all programs.",
  ["lisp/env.go:Set", "lisp/env.go:Update", "lisp/lisp.go:evAtom"])
p("C20", "def and defn always define globally",
  "(def x v) from any scope changes exactly one binding, x in the top-level scope, and every other binding in every scope stays as it was.",
  "every scope chain, name, value",
  "All scope chains and states.",
  ["lisp/env.go:SetTopLevel", "lisp/lisp.go:evDef", "lisp/lisp.go:evDefn"])
p("C21", "set! updates the nearest binding and never creates one",
  "(set! x v) changes exactly the nearest enclosing binding of x, visible through every closure sharing that scope, and nothing else; if x is bound in no scope it is an error and no binding changes.",
  "every scope chain, name, value",
  "All scope chains and states.",
  ["lisp/env.go:Update", "lisp/lisp.go:evSet"])
p("C22", "Scopes are never lost or re-parented, and bindings are never removed",
  "Whatever a program does, every scope that existed before still exists afterwards with the same parent, and every name visible from it is still visible from it. The scope chain is always finite.",
  "every program, every reachable state",
  "Invariant over all executions.",
  ["lisp/env.go", "lisp/lisp.go:eval"])
p("C23", "No dangling environments",
  "Every closure that exists anywhere (in a binding, in a result, in an error object) refers to an existing scope, in every reachable state.",
  "every program, every reachable state",
  "Invariant over all executions.",
  ["lisp/lambda.go:mkLambda", "lisp/lisp.go:eval"])
p("C24", "Lexical scope",
  "The result of calling a user function on given argument values does not depend on the scope the call is made from, only on the scope the function was created in: its body is evaluated in a new scope inside the scope its lambda (or defn) form was evaluated in.",
  "every closure, argument list, pair of calling scopes",
  "All calling contexts.",
  ["lisp/lisp.go:eval (user-defined functions)", "lisp/lambda.go"])
p("C25", "Parameter passing and arity",
  "A call with a wrong number of arguments is an error ('too many' / 'not enough arguments for function') and the body does not run; otherwise parameters are bound to the arguments in order in a fresh scope, and a rest parameter to the list of the remaining ones.",
  "every parameter list and argument list",
  "Arities and argument counts are unbounded.",
  ["lisp/lisp.go:setLambdaArgsInEnv", "lisp/lambda.go:mkLambda"])
p("C26", "let evaluates bindings outside and binds inside a fresh scope",
  "let evaluates every binding expression in the enclosing scope (not seeing the other bindings), then the body in a new scope; no binding of an existing scope changes by the act of binding.",
  "every let form and state",
  "Any number of bindings and any names, including shadowing ones.",
  ["lisp/lisp.go:eval (let)"])
# ---------------------------------------------------------------- control
p("C27", "quote is inert",
  "(quote x) returns x itself, for every x, without evaluating it and with no effect on any state.",
  "every value and state",
  "All values.",
  ["lisp/lisp.go:eval (quote)"])
p("C28", "cond takes the first true branch; only () is false",
  "cond evaluates conditions in order until one is not (), then evaluates only that branch; conditions and branches after it, and branches before it, are not evaluated; with no true condition the result is ().",
  "every list of clauses, every condition value",
  "Clause lists are unbounded and conditions are arbitrary programs.",
  ["lisp/lisp.go:eval (cond)"])
p("C29", "and / or short-circuit",
  "and returns () at the first () operand and t if there is none; or returns the first non-() operand and () if there is none; later operands are not evaluated (even if they would fail or never end).",
  "every operand list",
  "Operand lists are unbounded; operands are arbitrary programs.",
  ["lisp/lisp.go:eval (and)", "lisp/lisp.go:eval (or)"])
p("C30", "Tail calls run in constant stack",
  "A loop written as a self-call in tail position (through cond, let and function bodies) runs for any number of iterations within a fixed stack depth, and computes the right answer.",
  "every iteration count n",
  "No finite test shows absence of stack growth for all n.",
  ["lisp/lisp.go:eval (goto top)", "examples/tco.l1"])
p("C31", "Errors are lists that only grow at the front",
  "Every error that evaluation raises, other than an operating-system error, is a non-empty proper list; passing through an enclosing form only adds elements in front, so the original error is its last element.",
  "every program and state",
  "Every nesting of every form.",
  ["lisp/error.go", "lisp/lisp.go:eval"])
p("C32", "try/catch",
  "try runs forms until one fails; then the forms up to the catch clause are skipped and the catch body runs with the error list bound to the given name, in a fresh scope, and its last value is the result; if nothing fails the catch body does not run; without a catch clause the error is passed on unchanged.",
  "every body, error and catch clause",
  "All bodies and all errors.",
  ["lisp/lisp.go:eval (try)"])
p("C33", "swallow returns t exactly when an error occurred",
  "swallow runs its forms in order; at the first error it stops and returns t; if all succeed it returns (). It never raises an error itself; effects up to the failing form are kept.",
  "every body and state",
  "All bodies.",
  ["lisp/lisp.go:eval (swallow)"])
p("C34", "loop never returns a value",
  "(loop ...) never returns normally: it runs for ever, raises an error from its body, exits or crashes.",
  "every body, every amount of execution",
  "An infinite execution cannot be tested.",
  ["lisp/lisp.go:eval (loop)"])
p("C35", "syntax-quote builds the template",
  "`T yields T with each ~x replaced by the value of x and each ~@x replaced by the elements of the value of x, evaluated left to right, for every template T of proper lists.",
  "every template",
  "Templates nest and vary without bound.",
  ["lisp/lisp.go:syntaxQuote", "lisp/lisp.go:splicingUnquote", "lisp/l1.l1:concat2"])
p("C36", "Macros receive unevaluated arguments, and the expansion is evaluated in the caller's scope",
  "A macro call binds the macro's parameters to the argument expressions themselves, evaluates the macro body, repeats until the result is no longer a macro call, and evaluates that result in the scope of the call. macroexpand-1 returns the first expansion without evaluating it.",
  "every macro and every call",
  "All macros and argument expressions.",
  ["lisp/lisp.go:macroexpand1", "lisp/lisp.go:macroexpand", "lisp/lisp.go:isMacroCall"])
p("C37", "gensym never repeats",
  "Two gensym calls, at any two points of any execution and with any prefixes, return different atoms.",
  "every history and every pair of prefixes",
  "Every pair of points in every execution; collisions by concatenation of prefix and counter are the classic bug.",
  ["lisp/state.go:gensym", "lisp/builtin.go:\"gensym\""])
p("C38", "c[ad]+r accessors",
  "(c x1 .. xk r) applied to v is the composition of car and cdr read right to left, for every string of a's and d's of length at least two.",
  "every path string and every value",
  "The family of functions is infinite.",
  ["lisp/lisp.go:isCxr", "lisp/lisp.go:extractCxrLambda", "lisp/l1.l1:c*r"])
# ---------------------------------------------------------------- core library
p("C39", "List library functions compute their mathematical meaning",
  "concat2, reverse, nth, last, take, drop, map, filter, reduce, range, repeat, every, some, concat and friends of the core library return the mathematically defined list for every proper list argument.",
  "every proper list, index and (total) function argument",
  "All list lengths and contents.",
  ["lisp/l1.l1"])
p("C40", "Numeric library functions compute their mathematical meaning",
  "inc, dec, zero?, pos?, neg?, even?, odd?, abs, **, min and max of the core library agree with the mathematical functions on all integers.",
  "all integers (and for min/max every non-empty list of integers)",
  "Unbounded integers.",
  ["lisp/l1.l1"])
p("C41", "Control macros mean what they say",
  "if, if-not, when, when-not, progn evaluate exactly the branch or sequence documented.",
  "every condition and every branch",
  "All expressions.",
  ["lisp/l1.l1:if", "lisp/l1.l1:when", "lisp/l1.l1:progn"])
# ---------------------------------------------------------------- top level
p("C42", "A script stops at its first failing form, keeping earlier effects",
  "Evaluating a sequence of forms runs them in order and stops at the first error, which is reported; effects of the forms before it remain, and the forms after it are not run.",
  "every list of forms and state",
  "All programs.",
  ["lisp/lisp.go:EvalExprs", "main.go:main"])
p("C43", "Output is append-only and in order",
  "Nothing a program does removes or alters text already printed; print and println append exactly the printed forms of their arguments separated by single spaces.",
  "every program, every state",
  "Every execution.",
  ["lisp/builtin.go:\"print\"", "lisp/builtin.go:\"println\"", "lisp/builtin.go:\"printl\""])
p("C44", "More stack or more time never changes an answer",
  "If an evaluation finishes, with a value or an error, within some stack depth and some number of steps, it finishes with the same result and the same effects given any larger stack or any more steps.",
  "every expression, state, depth and step count",
  "All executions.",
  ["lisp/lisp.go:eval"])
p("C45", "Crash sites are not catchable, and ordinary built-ins have none",
  "No try, swallow or errors form turns a process crash into a value. The built-ins other than a fixed list (len, fuse, isqrt, randint, readlist, and those which call back into evaluation) never crash on any arguments.",
  "every argument list; every enclosing form",
  "All arguments of all types.",
  ["lisp/builtin.go", "lisp/lisp.go"])
p("C46", "source gives back the function",
  "Evaluating (source f) for a user function f gives a function with the same parameters, rest parameter and body.",
  "every user-defined function whose body does not itself begin with a doc form",
  "All functions.",
  ["lisp/builtin.go:\"source\"", "lisp/doc.go:combineArgs", "lisp/lambda.go:mkLambda"])
p("C47", "randint stays in range",
  "(randint n) for 0 < n < 2^63 returns an integer r with 0 <= r < n whatever the random source does; (randint 0) is an error; multiples of 2^64 and values whose low 64 bits read as a negative int crash.",
  "every n and every random source",
  "All n and all random outcomes.",
  ["lisp/builtin.go:\"randint\""])
p("C48", "Screen functions require an initialised screen",
  "screen-clear, screen-size, screen-get-key and screen-write give the error 'screen not initialized' unless a screen-start opened a screen since the last screen-end (it also counts as open when opening succeeded but initialising it failed); screen-end is always safe; a second screen-start is an error; nothing else changes whether there is a screen.",
  "every sequence of screen operations",
  "Every call order.",
  ["lisp/term.go"])
p("C49", "Same questions, same answers: runs are replayable",
  "The only nondeterminism is what the outside answers when asked (files, random numbers, subprocesses, keys, terminal size). A second run of the same program on the same input, in surroundings that give the same answers to the questions the first run asked, has the same outcome, output and final state; an evaluation that asks nothing has the same outcome everywhere.",
  "every program, input and pair of environments",
  "All programs and all histories of outside answers.",
  ["main.go:main", "lisp/lisp.go:eval", "lisp/builtin.go"])
p("C50", "upcase and downcase change letters only",
  "(upcase a) and (downcase a) are atoms with as many characters as a; each ASCII letter becomes its capital or small letter, every other ASCII character stays; arguments that are not one atom are errors.",
  "every atom and every argument list", "All strings.", ["lisp/builtin.go:\"upcase\"", "lisp/builtin.go:\"downcase\""])
p("C51", "shell runs one command and shapes its result",
  "(shell l), for a nonempty list of atoms and numbers, runs exactly one command with their texts and returns the lines of its standard output and standard error as lists of words (outer newlines trimmed), and its exit status; any other argument is an error and nothing is run.",
  "every argument and every outcome of the command", "All outputs of all commands.", ["lisp/shell.go:doShell", "lisp/shell.go:shapeOutput"])
p("C52", "readlist reads one line",
  "(readlist) takes exactly one line of input and returns the list of the forms in it, unevaluated; a line that is not a sequence of forms, or the end of the input, is an error.",
  "every line of input", "All texts.", ["lisp/builtin.go:\"readlist\"", "lisp/builtin.go:ReadLine"])
p("C53", "body, doc and version",
  "(body f) and (doc f) give back the body and documentation a user function was made with; on values that are not functions they are errors; (version) is a constant.",
  "every function and value", "All functions.", ["lisp/builtin.go:\"body\"", "lisp/builtin.go:\"doc\"", "lisp/builtin.go:\"version\""])
p("C54", "errors checks for an error containing a text",
  "(errors sig form...) evaluates the forms in order to the first error; it is () if the text of the evaluated signature occurs in the printed error, and an error otherwise or if no form fails; later forms are not evaluated.",
  "every signature, list of forms and state", "All forms.", ["lisp/lisp.go:evErrors"])
p("C55", "test runs its forms and reports them",
  "(test description form...) prints TEST and the evaluated description, evaluates the forms in order printing a dot after each, then a check mark and a newline, and is (); the first form that fails ends it with its error, nothing more being printed or evaluated.",
  "every list of forms and state", "All forms.", ["lisp/lisp.go:evalTest"])
p("C56", "sort-by returns a sorted permutation",
  "Whatever the function does, a result of (sort-by f l) has the same elements as l with the same multiplicities; if f gives keys that are all numbers or all atoms the result is in non-decreasing order of the keys; if f gives every element a key or fails on it, and there are two or more elements whose keys are not all numbers or all atoms (or one on which f fails), sort-by is an error. This holds for every sorting algorithm that sorts. Every error of sort-by on a list is an error of f on an element, or names two values of f on elements that are of different types, or a value of f on an element that is neither a number nor an atom.",
  "every function, list, state and comparison sort", "All functions, including ones with effects or errors, and all sorting algorithms.", ["lisp/builtin.go:\"sort-by\""])
p("C57", "load evaluates a file in the caller's scope",
  "(load f) evaluates the forms of the file in order in the scope of the call, prints nothing itself and is (); the first error ends it, keeping the effects so far; an unreadable file is an error.",
  "every file content and state", "All files.", ["lisp/builtin.go:\"load\"", "lisp/builtin.go:LoadFile"])
p("C58", "Ways to start the program",
  "After loading the core library, -e text evaluates the text and ends without reading input (printing an error if one occurs); file arguments are run as scripts without a REPL; with neither the REPL starts; if the core library fails to load nothing else is run. -v prints the version and ends before anything is loaded; -doc and -longdoc print the documentation instead of everything else.",
  "every text, file list and input", "All programs.", ["main.go:main"])
p("C59", "Predefined names",
  "SPACE, NEWLINE, TAB, BANG, QMARK, PERIOD, COMMA, COLON, HASH, ATSIGN, CHECK, QUOTE, BQUOTE, DQUOTE and UPLINE have their documented values at the start and after the core library is loaded, whatever the outside world.",
  "every world and input", "Interaction of the whole library load with the initial bindings, for every outside world.", ["lisp/builtin.go:InitGlobals"])
p("C60", "Reading a text follows the lexical grammar",
  "Lines are cut into tokens by longest match (numbers with an optional sign, atoms, parentheses, the prefixes ' ` ~ ~@ #_, the dot, a shebang to the end of its line; white space separates; a semicolon starts a comment), each line by itself; a text is accepted, with given forms, exactly if the tokens of its lines form a program with these forms; a number has its decimal value.",
  "every text", "All texts; the lexer is a state machine with look-ahead whose errors show only on particular neighbours.", ["lisp/lex.go:lexStart", "lisp/lex.go:lexAtom", "lisp/lex.go:lexInt", "lisp/lex.go:lexUnquote", "lisp/lex.go:lexHashSugar", "lisp/lex.go:LexItems", "lisp/parse.go:Parse"])
p("C61", "Reading errors name the line of the culprit",
  "Every reading error is a list of messages whose last one says that parentheses are unbalanced, that the input ended, or quotes a misplaced token of the text with the number of the line it is on (from 1); a token that cannot start a form, right after complete forms, is the one named.",
  "every text", "All texts and positions of the error.", ["lisp/parse.go:parseNext", "lisp/parse.go:Parse", "lisp/lex.go:LexItems"])
p("C62", "A REPL session is its groups evaluated in order",
  "A session reads groups of lines (each ending at the first line where parentheses balance), evaluates the forms of each group in order in the same scope, printing each value, stops a group at its first error and prints it, and goes on with the next group; unreadable groups print their error and change nothing else; the session ends at the end of the input, on exit, or on a crash; it ends in at most one way.",
  "every state and every sequence of input lines, including ones that evaluation itself consumes", "All sessions, of any length.", ["main.go:repl", "main.go:main", "lisp/lisp.go:LexParseEval"])
p("C63", "Private variables stay private",
  "A function cannot see or change the local variables of its caller unless it is given a closure over them: whatever is evaluated outside a set of scopes that nothing else refers to has the same outcome and effects whatever these scopes contain, and leaves them unchanged and private.",
  "every expression, call, state of a run and set of unreferenced scopes", "Non-interference compares all pairs of executions.", ["lisp/env.go:mkEnv", "lisp/env.go:Lookup", "lisp/env.go:Update", "lisp/lisp.go:eval"])
p("C64", "Computations that leave nothing behind are repeatable",
  "An evaluation that only printed and made new scopes has no influence on anything evaluated later: the outcome, printed text, input consumed and questions asked are as without it, up to the identity of new scopes; in particular evaluating the same expression again gives a value that prints the same and prints the same text.",
  "every expression, later task and state of a run", "Compares all pairs of executions that differ in garbage scopes.", ["lisp/env.go:mkEnv", "lisp/lisp.go:eval"])
p("C65", "Effects come only from the functions that have them",
  "An execution that calls none of print, println, printl, help and evaluates no test form writes nothing; one that does not call readlist consumes no input (so a script consumes input only through readlist); one that calls none of randint, shuffle, shell, load, forms, help, screen-start, screen-size, screen-get-key asks nothing of the outside and has the same outcome in every environment; one that does not call gensym issues no names; one that calls neither screen-start nor screen-end leaves the screen as it is.",
  "every expression, state and execution, including ones that fail, crash or never end", "A frame condition over every execution of every program.", ["lisp/builtin.go:init", "lisp/lisp.go:eval", "lisp/builtin.go:ReadLine"])
p("C66", "Only assignments change variables",
  "Until a def, defn, defmacro, set! or named lambda is evaluated, every existing scope keeps exactly its variables and values: calls, let, try, macros and native functions only add new scopes. Hence if a name means something else after an evaluation, an assignment was evaluated on the way.",
  "every expression, state and execution", "A frame condition over every execution of every program.", ["lisp/env.go:Set", "lisp/env.go:Update", "lisp/env.go:SetTopLevel", "lisp/lambda.go:mkLambda", "lisp/lisp.go:eval"])
p("C67", "Words and sentences",
  "punctuate-atom, bang, comma, period and colon put a mark at the end of a word; capitalize puts its first character in upper case; (punctuate f words), (tosentence words) and (exclaim words) give the words with the first capitalised and the last marked. (Words that begin with a digit are excluded: fusing their characters gives a number.)",
  "every word, list of words, marking function, state and Unicode table", "All words; library code built from loops, fuse, split and car/cdr at the ends of lists.", ["lisp/l1.l1:capitalize", "lisp/l1.l1:punctuate", "lisp/l1.l1:punctuate-atom", "lisp/l1.l1:tosentence", "lisp/l1.l1:exclaim"])
p("C68", "The listing of operators is complete and in order",
  "forms returns, in order of names, a description (name, kind, number of arguments, whether more are allowed, parameters, documentation) of every special form, native function and visible documented function or macro, and of nothing else (as long as the examples it runs change no variable; whatever they do, all special forms and native functions are there); help and -doc print one aligned line for each of the same operators; -longdoc prints an index and a section for each.",
  "every state, scope, set of user definitions and outside world (including every order in which Go walks its maps)", "All sets of definitions and map orders; the examples in the documentation are run on the way.", ["lisp/doc.go:availableForms", "lisp/doc.go:formsAsSexprList", "lisp/doc.go:ShortDocStr", "lisp/doc.go:LongDocStr", "lisp/env.go:EnvKeys", "main.go:main"])
p("C69", "Documented numbers of arguments are enforced",
  "A native function called with a number of arguments its documentation does not allow raises a catchable error and does nothing, except: exit, forms, help, readlist, version and the screen functions without parameters ignore what they are given; / accepts one argument, apply more than two, gensym at most one. A special form with fewer expressions than documented raises a catchable error and does nothing, except (loop); further expressions of quote, syntax-quote, def, set! and error are ignored.",
  "every native function, special form, argument list, state and outside world", "All functions and argument lists; each function checks for itself.", ["lisp/builtin.go:init", "lisp/doc.go:specialForms", "lisp/lisp.go:eval"])
p("C70", "Library functions call the function they are given in order, whatever it does",
  "map, filter, some, every, reduce, repeatedly and foreach call the function they are given with the elements of the list in order (some and every stop at the first value that decides, reduce passes the value so far, repeatedly passes nothing), once for each element, and return the list of the values, the kept elements, the deciding value or the last value; nothing else observable happens; if a call raises an error, exits, crashes or does not return, so does the whole, and no further call is made. In particular (map println l) prints the elements one on each line in order.",
  "every function that is not a macro and does not look at the scope of its caller (with any effects, closures and assignments), every list, every call reached in a run in which the function did not redefine the library's names", "All functions with all side effects, and all lists.", ["lisp/l1.l1:map", "lisp/l1.l1:filter", "lisp/l1.l1:some", "lisp/l1.l1:every", "lisp/l1.l1:reduce", "lisp/l1.l1:repeatedly", "lisp/l1.l1:foreach"])
p("C71", "while and dotimes take their turns, whatever the condition and the body do",
  "(while c x ...) evaluates c and, as long as its value is not (), x ... in order and c again; it is () when c is, has the outcome of the first evaluation that does not return a value (error, exit, crash), and never ends if c is never () and everything returns. (dotimes n x ...) evaluates n once, does nothing more if it is a negative number, and otherwise evaluates x ... in order as many times as it says, with count the number of turns to go; if x ... assign count, the loop goes on from the assigned value. Nothing else observable happens. In particular (dotimes m (println 5)) writes m lines, (while ()) is () and (while 1) never ends.",
  "every condition, body, count, state, outside world and effect of the condition and the body (assignments, closures, output, errors, exit) short of redefining the library's names", "All conditions and bodies with all side effects, and endless loops.", ["lisp/l1.l1:while", "lisp/l1.l1:dotimes"])
p("C72", "let*, is, with-screen and the random functions do what they say",
  "(let* ((n x) ...) body ...) evaluates each x in order where the earlier names are bound to their values, then the body with all of them bound, and has the outcome of the first evaluation that does not return a value. (is c) evaluates c once and is () if its value is not (), otherwise the catchable error (assertion failed: c) with c unevaluated; (is (= a b)) evaluates a and b once each in order, and its error shows both expressions and both values. (with-screen x ...) starts the screen, evaluates x ... with the same variables visible, ends the screen and returns the value of the last x; if an x does not return a value the screen is not ended. (randigits n) and (randalpha n) are lists of n digits or one-letter atoms, (randchoice l) is an element of the nonempty list l, (randchoice ()) an error; each takes just the random numbers it needs. (true? v) is t exactly for t; pi100 is the first hundred digits of pi. Nothing else observable happens.",
  "every expression with any effect short of redefining the library's names, every list and count, every state and outside world", "All expressions with all side effects, and all outcomes of the random source.", ["lisp/l1.l1:let*", "lisp/l1.l1:is", "lisp/l1.l1:with-screen", "lisp/l1.l1:randigits", "lisp/l1.l1:randchoice", "lisp/l1.l1:randalpha", "lisp/l1.l1:true?", "lisp/l1.l1:pi100"])
p("C73", "Creating functions",
  "(lambda (params ...) body ...) evaluates to a function with exactly these parameters and body, with no effect; a leading (doc ...) form becomes its documentation instead of part of the body; (lambda name (params ...) body ...) also binds name to the function, in the scope the form is evaluated in and nowhere else, so that the function can call itself; a missing argument list, or one that is not names possibly followed by () and/or a dotted rest name, is an error and binds nothing.",
  "every parameter list, documentation, body, name, scope and state",
  "Parameter lists, documentation and bodies are unbounded.",
  ["lisp/lambda.go:mkLambda", "lisp/lisp.go:eval (lambda)"])
p("C74", "What the terminal and the clock are told",
  "With an initialised screen, (screen-write x y l) puts the characters of the list's printed form (without parentheses) into row |y| in their order, the first in column |x| and each next one right behind the columns taken by those before it, and then shows the screen; (screen-clear) clears and shows it; (screen-end) closes it; (screen-get-key) returns the next key: a character as itself, special keys by their fixed names. (sleep n) waits |n| milliseconds, once. No other function gives orders to the terminal or the clock, and orders once given are never taken back.",
  "every coordinate, text, character width table, key, duration and state; every execution for the last sentence",
  "Texts, width tables and histories are unbounded; tests of the real terminal need a terminal.",
  ["lisp/term.go:termDrawText", "lisp/term.go:termClear", "lisp/term.go:termEnd", "lisp/term.go:termGetKey", "lisp/builtin.go:screen-write", "lisp/builtin.go:sleep"])
p("C75", "Local refactorings are safe",
  "(let ((p x) ...) body ...) and ((lambda (p ...) body ...) x ...) can be exchanged for each other anywhere, and a macro call can be exchanged for its expansion (if expanding leaves nothing behind but scopes): both forms end the same way, with values that print the same (equal ones, if no functions of the program are in them), the same text printed, the same input read; in case of an error, only the context element in front of it may differ; and whatever is evaluated afterwards cannot tell which of the two was evaluated before.",
  "every reachable state and scope, all names, argument expressions and bodies (including those that define, fail, print, never end, or return functions), and all sequences of later expressions",
  "Two programs must be compared on all states, bodies and continuations; scope numbers differ between the two runs, so the states are only equal up to renumbering.",
  ["lisp/lisp.go:eval", "lisp/lisp.go:setLambdaArgsInEnv", "lisp/lambda.go:mkLambda", "lisp/lisp.go:macroexpand"])
p("C76", "The exit status",
  "Run on script files, the program ends with status 0 exactly when every form of every file, in order, had a value or an (exit) was reached before the first failure; with status 1 after the first file that cannot be read, does not parse, or has a form that fails, having printed ERROR: and the error and evaluated nothing further; with status 2 after a Go panic; otherwise it goes on for ever. The same for -e, whose errors are printed without ERROR:. The REPL never ends with status 1: errors do not end it, the end of the input and (exit) give status 0. -v gives status 0.",
  "every list of files, every contents, every command-line text, every outside world and input",
  "All programs and all files; the statuses of failing runs need a subprocess to observe and depend on where in a file the first failure is.",
  ["main.go:main", "main.go:repl", "lisp/builtin.go:exit", "lisp/lisp.go:LoadFile"])
p("C77", "The example programs compute what they claim",
  "Loading examples/fact.l1 prints 100! and from then on (fact k) is k! for every natural k. Loading tco.l1 prints nothing (its assertions hold), and from then on (sum-to k) and (sum-to-with-let k) are 1 + ... + k for every k, computed on a stack of two nested evaluations whatever k is. Loading primes.l1 prints the first 300 numbers that are 1 or prime; (prime? n) is t exactly for primes and numbers less than 2, (smallest-divisor n) is the least divisor above 1 of n, (n-primes c) the first c numbers that are 1 or prime. hello.l1 prints hello world. fails.l1 prints its line and fails with its assertion; badlex.l1 fails at the unknown symbol &. As scripts, the first four end with status 0 and the other two with status 1, with exactly this output.",
  "every argument of the functions defined, every scope and state after loading (with the top-level definitions in place), every outside world and input",
  "All arguments: deep recursion, loops and big numbers; the programs use macros, library functions, recursion, closures and tail calls together.",
  ["examples/fact.l1", "examples/tco.l1", "examples/primes.l1", "examples/hello.l1", "examples/fails.l1", "examples/badlex.l1", "lisp/lisp.go:eval", "main.go:main"])
p("C78", "Native functions are values",
  "The name of a native function, where it has been given no other meaning, evaluates to the function. A call ends in exactly the same way (value, error with its context, exit, crash, effects) whether the native function is reached by its own name, through a variable that holds it, or as the value of any other expression in head position, as long as the arguments have the same values.",
  "every native function, every head expression, argument expressions, scope, state and outside world",
  "There are over fifty native functions and unboundedly many ways to reach them; tests call each by its name with a few arguments.",
  ["lisp/lisp.go: eval", "lisp/builtin.go: builtins"])

p("C79", "Programs made by l1c",
  "A program compiled by l1c from a text loads the core library and evaluates the forms of the text in order up to the first that fails. It ends with status 0 after the last form, and also, printing nothing about it, after a syntax error or a form that fails; (exit) gives status 0, a Go panic status 2; its status is never 1. Compared with l1 -e text it does the same, except that an error is neither printed nor visible in the exit status.",
  "every program text, input and outside world",
  "The build script's output is a different main program from the tested one; its behaviour on failing programs is not observable from the test suite.",
  ["l1c", "lisp/lisp.go: LexParseEval"])

p("C80", "The command line",
  "Arguments are read from left to right: -name, --name, -name=value and --name=value for the switches v, doc and longdoc (values 1, t, T, TRUE, true, True and 0, f, F, FALSE, false, False) and for the texts p and e (which also take the next argument); later settings override earlier ones; the first argument that does not begin with - (or is just -), and all after it, and all after --, are files, run in order whatever they are called. -h and -help end the program with status 0; an unknown flag, a missing or impossible value and anything else that begins with - is wrong and gives status 2, before anything is evaluated. -v wins over everything else. A profile file that cannot be created ends the program with status 2. In all cases the status is 0, 1 or 2.",
  "every list of arguments, input and outside world",
  "Command lines are unbounded combinations; the tests start the program in a handful of ways.",
  ["main.go: main"])

p("C81", "What of the standard input reaches the program",
  "Each line the program reads (in the REPL or by readlist) is taken from the input in order; nothing is invented or moved. A line that arrives in one or several reads, the last of which ends with it, is delivered without its end (a newline with or without a carriage return); so at a terminal all lines are delivered. What was read together with the end of a line is lost: of several lines that arrive in one read, as from a pipe, only the first is delivered. A last line without an end is delivered; a line longer than 4096 bytes is delivered in pieces of that size. No line contains a newline. For text in UTF-8, so typed line by line, the program behaves as if given the lines as text.",
  "every input and every way it is cut into reads",
  "How the operating system cuts the input into reads depends on timing and on what is at the other end; a test sees one schedule.",
  ["lisp/builtin.go: ReadLine", "main.go: repl"])

p("C82", "Code without calls of the program's functions ends",
  "An expression that only uses constants, variables, quotations, and, or, cond, let, def, set!, lambda, defn, defmacro, error, try/catch, errors, swallow, test and native functions that evaluate nothing (all except apply, eval, load, macroexpand-1, sort-by, forms and help), with these names in their original meaning, ends: with a value, an error, a crash or the end of the process, never by running for ever or exhausting the stack. It needs no deeper stack than its parentheses are nested. It leaves those names in their original meaning, so a program of such expressions ends with an exit status.",
  "every such expression and program, every state with those names unbound, every outside world",
  "Termination for all expressions of unbounded size and depth, in all states and worlds.",
  ["lisp/lisp.go: eval", "lisp/builtin.go"])

p("C83", "The version as a list",
  "For an interpreter built with a version text of one to three numbers with periods between them, a v or nothing before them and -dirty or nothing after them, (version) is the list of the numbers, zeros in front ignored, and, if so, the atom dirty. A text without digits gives the empty list, and any text at most three numbers and dirty. (version) ignores its arguments, and shows the same version as l1 -v.",
  "every version text",
  "The release script writes a new text for each release; a test sees a few.",
  ["lisp/builtin.go: semverAsExprs, version", "lisp/version.go"])

p("C84", "How deep a stack the list functions need",
  "The stack that (nth n xs), (drop n xs), (last xs), (every f xs), (some f xs), (reduce f xs), (reduce f a xs) and (range n) need is a small constant (apart from what f needs), however long the list. (map f xs), (filter f xs), (take n xs), (concat2 xs ys), (repeat n x) and (** n m) need at most a small constant and one evaluator call for each element of the result (of xs; factor), and they and (reverse xs) do need that many: on a smaller stack, such a call overflows the stack.",
  "every list, number, function that returns, state with the library, depth of stack",
  "The depth depends on the length of the list, which is unbounded; a test on short lists sees no overflow.",
  ["lisp/l1.l1", "lisp/lisp.go: eval"])

p("C85", "While loops need no stack",
  "If each turn of a while loop (its condition and its expressions) can be evaluated on some stack, then the loop can, on a stack deeper by one, however many turns there are: a property of the state that each turn keeps, with a bound on the turns to come that each turn lowers, leads to the end of the loop. For instance a loop that counts a variable down to 0 from any number needs a stack of 20.",
  "every condition, list of expressions, state with the library, invariant and number of turns",
  "The number of turns is unbounded.",
  ["lisp/l1.l1: while", "lisp/lisp.go: eval"])

p("C86", "The interpreter follows the rules of the language, exactly",
  "The language is given by a list of rules, each saying how the outcome of a form (a value, an error, a panic or the end of the process, and the state left behind) comes from the outcomes of its parts; the rules mention neither the stack, nor steps, nor the jumps the interpreter makes for last expressions. Evaluating any expression ends with an outcome if and only if the rules give that outcome; on any machine every outcome other than exhaustion is the one the rules give, and any machine with enough time and stack finds it; the rules give at most one outcome; evaluation goes on for ever exactly when they give none.",
  "every expression, scope, state, world, stack and step budget; every outcome",
  "All programs are ranged over, and executions of every length.",
  ["lisp/lisp.go: eval, macroexpand, macroexpand1, evDef, evSet, evErrors, evalTest, setLambdaArgsInEnv, EvalExprs", "lisp/builtin.go: applyFn, builtins"])

p("C87", "examples/sentences.l1 generates the sentences of its grammars",
  "After the definitions of examples/sentences.l1, (generate grammar phrase) returns, for any grammar and phrase, the words that the next random numbers choose among the alternatives, from left to right, and has no other effect; it goes on for ever exactly if these choices do. What can be chosen is exactly the language of the grammar: every list of words derivable from the phrase, and no other. With the simple grammar a sentence is article, noun, verb, article, noun and generation always ends; with the bigger one it may not. The script writes ten such sentences, each with a grammar chosen at random, as lines with a capital letter and a period, and exits with status 0.",
  "every grammar, phrase, stream of random numbers, state with the definitions",
  "The output is random, and the number of sentences of the bigger grammar is infinite.",
  ["examples/sentences.l1", "lisp/l1.l1: randchoice, mapcat, dotimes, capitalize, period, join", "lisp/builtin.go: randint"])

p("C88", "examples/eliza.l1 matches patterns and answers lines",
  "After the definitions of examples/eliza.l1, (pat-match pattern input bindings) returns, for any pattern in which pieces (?* v) are separated by words, and any input without elements of that form, the first way in which the pattern fits the input (shorter pieces first, equal names stand for equal words), and () exactly if it does not fit. (use-eliza-rules sentence) answers with the first rule whose words occur in the sentence, with one random number choosing the response and what follows the words, with I and you switched, put in for ?y. The script passes its own tests, answers every line read with one line after the prompt eliza>, and at the end of the input fails with EOF and exit status 1.",
  "every pattern and input as described, every list of input lines that can be read, every stream of random numbers",
  "There are infinitely many patterns, inputs and conversations; the answers are random.",
  ["examples/eliza.l1", "lisp/l1.l1: some, randchoice, flatten, take, drop, is", "lisp/builtin.go: readlist, print, printl", "lisp/lisp.go: test, loop, let, cond"])

p("C89", "examples/meta.l1 counts repetitions and reports them",
  "After the definitions of examples/meta.l1, (frequencies l) returns, for any list of data, each different element once, in the order of the last occurrences, in a pair with a number which is one less than the number of its occurrences. The last form of the script writes the number of forms and one line per type of form, with these numbers, the largest first, and returns ().",
  "every list of data; every list of forms, however it is computed; every sorting algorithm",
  "There are infinitely many lists; the forms listed depend on what is defined and the order of equal numbers on the sorting algorithm.",
  ["examples/meta.l1", "lisp/l1.l1: foreach, map, some, partial, when-not, if-not, reverse, second", "lisp/builtin.go: sort-by, printl, =", "lisp/lisp.go: let, set!, syntax-quote"])

p("C90", "examples/fuzz-legal.l1 only writes expressions that evaluate without errors",
  "After the definitions of examples/fuzz-legal.l1, (expr n) returns, whatever the random numbers are, a legal expression (numbers, sums, differences, products and guarded quotients of legal numeric expressions, lengths of quoted lists and of split words and numbers, quoted words and lists, t and ()), with no other effect than taking random numbers; or it goes on for ever, which some random numbers cause. It never fails. Every legal expression evaluates, without errors and effects, to one value, given by ordinary arithmetic and lengths. Every turn of the script's loop writes such an expression and its value in a line and an empty line, and the script never ends.",
  "every stream of random numbers, every size below 2^62, every legal expression, every number of turns",
  "There are infinitely many expressions and streams of random numbers, and the script does not end.",
  ["examples/fuzz-legal.l1", "lisp/l1.l1: randchoice, repeatedly, partial, randigits, randalpha, list*, range, zero?, while", "lisp/builtin.go: eval, split, len, fuse, apply, +, -, *, /, randint, printl"])

p("C91", "examples/galax.l1 writes ten sentences, which the random numbers determine",
  "The script examples/galax.l1 ends with exit status 0 whatever the random numbers are: it takes 222 of them, reads nothing, and writes ten lines. Each line is news from one of the listed planets, in one of two forms (an adjective, a form of life, `have`, what it has done, a place, `of planet`, the name; or the place and the planet first), with the first letter in upper case and an exclamation mark at the end; the planet's name is capitalised, and followed by a comma in the second form. The words are those that the random numbers choose: each is the remainder, by the number of choices, of a random number at a known place in the sequence (22 numbers for each line; both forms of a sentence and of a place are made before one of them is chosen).",
  "every stream of random numbers, every input, every state in which the library is intact",
  "There are infinitely many streams of random numbers; a run shows ten of several hundred million sentences.",
  ["examples/galax.l1", "lisp/l1.l1: randchoice, exclaim, punctuate, capitalize, comma, concat2, dotimes", "lisp/lisp.go: eval (macro expansion), syntaxQuote, splicingUnquote", "lisp/builtin.go: randint, printl"])

p("C92", "examples/screen-test.l1 uses the terminal as it says and leaves it closed",
  "The script examples/screen-test.l1, where the terminal can be opened: it opens and clears the screen, shows `hello this is a test` from column 10 of row 10 on and `press any key to continue` from column 10 of row 12 on (each character in the column after the ones before it, according to their widths), asks for one key and then for the size, closes the screen, and only then writes its line, `I received the K key! The screen is (W H) in size.`, with the name of the key and the size; it reads nothing and the exit status is 0. Where the terminal cannot be opened it shows nothing, and as a script writes the operating system's error and ends with exit status 1. examples/help.l1 prints the table that `(help)` prints: all special forms and native functions at least, in order.",
  "every answer of the terminal (whether it opens, the key, the size, the widths of characters up to 2), every input, every state in which the library is intact and there is no screen",
  "A test runs without a terminal, or with one whose answers are fixed.",
  ["examples/screen-test.l1", "examples/help.l1", "lisp/l1.l1: with-screen", "lisp/term.go", "lisp/builtin.go: screen-write, screen-get-key, screen-size, help"])

with open("/verif/properties.jsonl", "w") as f:
    for x in P:
        f.write(json.dumps(x, ensure_ascii=False) + "\n")
print(len(P))
